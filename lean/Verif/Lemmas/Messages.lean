import Verif.Lemmas.FieldsBytes
import Verif.Lemmas.Chunks

/-! From laws about single properties to laws about messages. -/

namespace Midi2

/-- Word positions and bits which the validation of a property may look at. -/
def Fld.checkBits (f : Fld) (i : Nat) : BitVec 32 :=
  match f with
  | .flexStatus _ | .flexBank _ | .streamStatus _ => if i % 4 = 0 then f.umpBits.d1 else 0
  | .streamFormats => if i % 4 = 0 then 0xFC000000 else 0
  | f => f.umpBits.at i

theorem SameOff.getElem? {n : Nat} {m : Nat → BitVec n} {a b : List (BitVec n)}
    (h : SameOff m a b) (i : Nat) {g : BitVec n} (hd : m i &&& g = 0) :
    (a[i]?).map (· &&& g) = (b[i]?).map (· &&& g) := by
  by_cases hi : i < a.length
  · have hi' : i < b.length := h.1 ▸ hi
    have e := h.2 i hi hi'
    have key : ∀ x : BitVec n, x &&& g = x &&& ~~~(m i) &&& g := by
      intro x
      apply BitVec.eq_of_getLsbD_eq
      intro k hk
      have := congrArg (fun y : BitVec n => y.getLsbD k) hd
      simp only [BitVec.getLsbD_and] at this
      simp only [BitVec.getLsbD_and, BitVec.getLsbD_not, hk, decide_true, Bool.true_and]
      revert this
      cases (m i).getLsbD k <;> cases g.getLsbD k <;> simp
    simp only [List.getElem?_eq_getElem hi, List.getElem?_eq_getElem hi', Option.map_some]
    rw [key a[i], key b[i], e]
  · have hi' : ¬ i < b.length := h.1 ▸ hi
    simp [List.getElem?_eq_none (Nat.le_of_not_lt hi), List.getElem?_eq_none (Nat.le_of_not_lt hi')]

theorem Fld.check_eq (f : Fld) (h : f.ranging = false) : f.checkBits = f.umpBits.at := by
  cases f <;> first | rfl | (exact absurd (show true = false from h) (by decide))

theorem and_sub {x y m : BitVec 32} {k s : Nat} (hc : covers k s m = true)
    (h : x &&& m = y &&& m) : x.extractLsb' s k = y.extractLsb' s k := ext_congr h hc

/-- Validation depends only on `checkBits` (for buffers of the same length). -/
theorem Fld.validate32_check (f : Fld) {b b' : List (BitVec 32)} (hl : b.length = b'.length)
    (h : ∀ i, (b[i]?).map (· &&& f.checkBits i) = (b'[i]?).map (· &&& f.checkBits i)) :
    f.validate32 b = f.validate32 b' := by
  by_cases hr : f.ranging = false
  · apply validate32_congr f hr
    intro i _
    rw [← check_eq f hr]
    exact h i
  have h4 : ∀ (m : BitVec 32), (∀ i, i % 4 = 0 → f.checkBits i = m) →
      ∀ i, 4 ∣ i → (b[i]?).map (· &&& m) = (b'[i]?).map (· &&& m) := by
    intro m hm i hi
    have := h i
    rwa [hm i (Nat.mod_eq_zero_of_dvd hi)] at this
  cases f <;> try exact absurd rfl hr
  case flexStatus s =>
    simp only [validate32]
    have e := chunksExact_heads_congr (k := 4) (by omega) (· &&& 0x000000FF#32) b b' hl
      (h4 _ fun i hi => show (if i % 4 = 0 then 0x000000FF#32 else 0) = _ from if_pos hi)
    rw [all_map_congr _ _ _ _ _ e]
    intro x y hxy
    simp only [U32.octet_eq]
    rw [ext_congr hxy (by decide)]
  case flexBank s =>
    simp only [validate32]
    have e := chunksExact_heads_congr (k := 4) (by omega) (· &&& 0x0000FF00#32) b b' hl
      (h4 _ fun i hi => show (if i % 4 = 0 then 0x0000FF00#32 else 0) = _ from if_pos hi)
    rw [all_map_congr _ _ _ _ _ e]
    intro x y hxy
    simp only [U32.octet_eq]
    rw [ext_congr hxy (by decide)]
  case streamStatus s =>
    simp only [validate32]
    have e := chunksExact_heads_congr (k := 4) (by omega) (· &&& 0x03FF0000#32) b b' hl
      (h4 _ fun i hi => show (if i % 4 = 0 then 0x03FF0000#32 else 0) = _ from if_pos hi)
    rw [all_map_congr _ _ _ _ _ e]
    intro x y hxy
    simp only [streamStatusOf]
    have : head0 x &&& 0x03FF0000#32 = head0 y &&& 0x03FF0000#32 := hxy
    rw [this]
  case streamFormats =>
    simp only [validate32]
    have e := chunks_heads_congr (k := 4) (by omega) (· &&& 0xFC000000#32) b b' hl
      (h4 _ fun i hi => show (if i % 4 = 0 then 0xFC000000#32 else 0) = _ from if_pos hi)
    rw [validateStatuses_eq 4 0xF#4 (fun w => U32.crumb w 2 == 0#2) (fun w => U32.crumb w 2 == 1#2)
      (fun w => U32.crumb w 2 == 2#2) (fun w => U32.crumb w 2 == 3#2),
      validateStatuses_eq 4 0xF#4 (fun w => U32.crumb w 2 == 0#2) (fun w => U32.crumb w 2 == 1#2)
      (fun w => U32.crumb w 2 == 2#2) (fun w => U32.crumb w 2 == 3#2)]
    have hc : ∀ x y : BitVec 32, x &&& 0xFC000000#32 = y &&& 0xFC000000#32 →
        U32.crumb x 2 = U32.crumb y 2 := by
      intro x y hxy
      rw [U32.crumb_eq, U32.crumb_eq, ext_congr hxy (by decide)]
    have hn : ∀ x y : BitVec 32, x &&& 0xFC000000#32 = y &&& 0xFC000000#32 →
        U32.nibble x 0 = U32.nibble y 0 := by
      intro x y hxy
      rw [U32.nibble_eq, U32.nibble_eq, ext_congr hxy (by decide)]
    apply statusesW_map (g := (· &&& 0xFC000000#32))
    · intro x y hxy; simp only [hc x y hxy]
    · intro x y hxy; simp only [hc x y hxy]
    · intro x y hxy; simp only [hc x y hxy]
    · intro x y hxy; simp only [hc x y hxy]
    · apply takeWhile_map_congr
      · intro x y hxy; simp only [hn x y hxy]
      · rw [List.map_map, List.map_map]; exact e

/-- Words of `f`'s footprint and of `g`'s validation do not overlap. -/
def Fld.disjoint (f g : Fld) : Bool :=
  (List.range 4).all fun i => f.umpBits.at i &&& g.checkBits i == 0 &&
    (f.umpBits.at i &&& g.umpBits.at i == 0)

theorem Fld.disjoint_at {f g : Fld} (h : f.disjoint g = true) (i : Nat) :
    f.umpBits.at i &&& g.checkBits i = 0 ∧ f.umpBits.at i &&& g.umpBits.at i = 0 := by
  by_cases hi : i < 4
  · have := List.all_eq_true.mp h i (by simpa using hi)
    simpa using this
  · have : f.umpBits.at i = 0 := by
      match i, hi with
      | i + 4, _ => rfl
    simp [this]

/-- The byte masks do not overlap. -/
def Fld.disjoint8 (f g : Fld) : Bool :=
  (List.range 3).all fun i => f.byteBits.at i &&& g.byteBits.at i == 0

theorem Fld.disjoint8_at {f g : Fld} (h : f.disjoint8 g = true) (i : Nat) :
    f.byteBits.at i &&& g.byteBits.at i = 0 := by
  by_cases hi : i < 3
  · have := List.all_eq_true.mp h i (by simpa using hi)
    simpa using this
  · have : f.byteBits.at i = 0 := by
      match i, hi with
      | i + 3, _ => rfl
    simp [this]

/-- Separation of two properties in a representation. -/
def Fld.sep (m : Fmt) (f g : Fld) : Bool :=
  match m with
  | .ump => f.disjoint g
  | .bytes => f.disjoint8 g

/-- The property is implemented and fits into `size` units. -/
def Fld.fits (m : Fmt) (size : Nat) (f : Fld) : Bool :=
  match m with
  | .ump => f.implemented && decide (f.umpBits.need ≤ size)
  | .bytes => f.implemented8 && decide (f.byteBits.need ≤ size)

theorem Fld.accessible_ranging {m : Fmt} {f : Fld} (h : f.accessible m = true) :
    f.ranging = false := by
  cases f <;> first | rfl | (cases m <;> cases h)

theorem Fld.accessible_bytes {f : Fld} (h : f.accessible .bytes = true)
    (him : f.implemented8 = true) (r : Rep) (s : BytesSchema) (u : UmpSchema)
    (e : f = .hybrid r s u) : f.byteBits ≠ ⟨0, 0, 0⟩ := by
  subst e
  intro h0
  have h0 : s = ⟨0, 0, 0⟩ := h0
  subst h0
  have him : ((bytesImpl r).lookup ⟨0, 0, 0⟩).isSome = true := him
  revert him
  clear h
  cases r <;> decide +kernel

/-- Write law in either representation. -/
theorem Fld.write_law {m : Fmt} {f : Fld} {size : Nat} (ha : f.accessible m = true)
    (hf : f.fits m size = true) {b : Buf m} (hb : size ≤ b.length) (v : f.Ty)
    (hv : f.faithful v = true) :
    ∃ b', f.write m b v = .ok b' ∧ SameOff (f.bits m) b b' ∧ f.read m b' = .ok v ∧
      f.validate m b' = .ok () := by
  cases m with
  | ump =>
    simp only [fits, Bool.and_eq_true, decide_eq_true_eq] at hf
    exact write32_law f (accessible_ranging ha) hf.1 (Nat.le_trans hf.2 hb) v hv
  | bytes =>
    simp only [fits, Bool.and_eq_true, decide_eq_true_eq] at hf
    obtain ⟨b', e1, e2, e3, e4⟩ := write8_law f hf.1 (Nat.le_trans hf.2 hb) v
    refine ⟨b', e1, e2, ?_, e4⟩
    cases f
    case hybrid r s u => exact e3 (accessible_bytes ha hf.1 r s u rfl)
    all_goals first
      | exact absurd (show false = true from ha) (by decide)
      | exact absurd (show false = true from hf.1) (by decide)

/-- Non-interference with the getter of another property. -/
theorem Fld.read_of_sep {m : Fmt} {f g : Fld} (hs : f.sep m g = true) {b b' : Buf m}
    (h : SameOff (f.bits m) b b') : g.read m b' = g.read m b := by
  cases m with
  | ump =>
    exact (read32_congr g (SameOn.agree (SameOff.on h fun i => (disjoint_at hs i).2))).symm
  | bytes =>
    exact (read8_congr g (SameOn.agree (SameOff.on h fun i => disjoint8_at hs i))).symm

/-- Non-interference with the validation of another property. -/
theorem Fld.validate_of_sep {m : Fmt} {f g : Fld} (hs : f.sep m g = true) {b b' : Buf m}
    (h : SameOff (f.bits m) b b') : g.validate m b' = g.validate m b := by
  cases m with
  | ump =>
    refine (validate32_check g h.1 fun i => ?_).symm
    exact SameOff.getElem? h i (disjoint_at hs i).1
  | bytes =>
    exact (validate8_congr g (SameOn.agree (SameOff.on h fun i => disjoint8_at hs i))).symm

/-- Finite facts about the table of messages. -/
def MsgDesc.separated (d : MsgDesc) (m : Fmt) : Bool :=
  d.props.all fun p => d.props.all fun q =>
    p.1 == q.1 || !p.2.accessible m || p.2.sep m q.2

def MsgDesc.fits (d : MsgDesc) (m : Fmt) (size : Nat) : Bool :=
  d.props.all fun p => p.2.fits m size

theorem table_ump_separated : Msg.all.all (fun d => d.separated .ump) = true := by decide +kernel
theorem table_bytes_separated : Msg.hybridAll.all (fun d => d.separated .bytes) = true := by
  decide +kernel
theorem table_ump_fits : Msg.all.all (fun d => d.fits .ump d.umpSize) = true := by decide +kernel
theorem table_bytes_fits :
    Msg.hybridAll.all (fun d => d.name == "system_common::SongPositionPointer" ||
      d.fits .bytes (d.minSize .bytes)) = true := by
  decide +kernel
theorem table_spp_fits : Msg.sysSongPositionPointer.fits .bytes 3 = true := by decide +kernel
theorem table_names : Msg.all.all (fun d => decide (d.props.map (·.1)).Nodup) = true := by
  decide +kernel

theorem MsgDesc.fits_mem {d : MsgDesc} {m : Fmt} {size : Nat} (h : d.fits m size = true)
    {n : String} {f : Fld} (hf : (n, f) ∈ d.props) : f.fits m size = true :=
  List.all_eq_true.mp h _ hf

theorem MsgDesc.separated_mem {d : MsgDesc} {m : Fmt} (h : d.separated m = true)
    {n n' : String} {f g : Fld} (hf : (n, f) ∈ d.props) (hg : (n', g) ∈ d.props)
    (hne : n ≠ n') (ha : f.accessible m = true) : f.sep m g = true := by
  have := List.all_eq_true.mp (List.all_eq_true.mp h _ hf) _ hg
  simp only [Bool.or_eq_true, beq_iff_eq, Bool.not_eq_true'] at this
  rcases this with (h | h) | h
  · exact absurd h hne
  · rw [ha] at h; cases h
  · exact h

theorem eq_of_nodup_map {α β : Type} {l : List (α × β)} (h : (l.map (·.1)).Nodup) {a : α}
    {x y : β} (hx : (a, x) ∈ l) (hy : (a, y) ∈ l) : x = y := by
  induction l with
  | nil => cases hx
  | cons p l ih =>
    simp only [List.map_cons, List.nodup_cons, List.mem_map] at h
    rcases List.mem_cons.mp hx with e | hx
    · rcases List.mem_cons.mp hy with e' | hy
      · rw [e'.symm] at e; cases e; rfl
      · exact absurd ⟨_, hy, by rw [← e]⟩ h.1
    · rcases List.mem_cons.mp hy with e' | hy
      · exact absurd ⟨_, hx, by rw [← e']⟩ h.1
      · exact ih h.2 hx hy

end Midi2
