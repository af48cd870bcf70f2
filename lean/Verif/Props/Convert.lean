import Verif.Lemmas.Convert
import Verif.Spec.Convert
import Verif.Props.Construct

/-!
# C13: conversion between bytes and UMP preserves every property
-/

namespace Midi2

/-- Everything there is to know about one conversion. -/
theorem convert_core {d : MsgDesc} (hd : d ∈ Msg.hybridAll) (src dst : Fmt) (a : Buf src)
    {sa : Nat} (hfa : d.fits src sa = true) (hsa : sa ≤ a.length)
    (ha : d.tryFrom src a = .ok a) (size : Nat) (hf : d.fits dst size = true)
    (hmin : d.minSize dst ≤ size) :
    ∃ b, convertProps src dst d.props a (List.replicate size 0) = .ok b ∧ b.length = size ∧
      d.tryFrom dst b = .ok b ∧ SameOff (usedBits dst d.props) (List.replicate size 0) b ∧
      ∀ n f, (n, f) ∈ d.props →
        f.accessible dst = true → f.read dst b = f.read src a := by
  obtain ⟨_, hv⟩ := (tryFrom_iff d src a).mp ha
  have hap := List.all_eq_true.mp table_apart d hd
  rw [Bool.and_eq_true] at hap
  have hap : d.apart dst = true := by
    cases dst with
    | ump => exact hap.1
    | bytes => exact hap.2
  have hall : d ∈ Msg.all := by
    have : ∀ d ∈ Msg.hybridAll, d ∈ Msg.all := by decide +kernel
    exact this d hd
  obtain ⟨b, h1, h2, h3, _⟩ := convertProps_law (dst := dst) (size := size) a d.props
    (of_decide_eq_true (List.all_eq_true.mp table_names d hall))
    (fun p hp => List.all_eq_true.mp (List.all_eq_true.mp table_dual d hd) p hp)
    (fun p hp => MsgDesc.fits_mem hf hp)
    (fun p hp q hq hne => by
      have := List.all_eq_true.mp (List.all_eq_true.mp hap p hp) q hq
      simpa [hne] using this)
    (fun p hp => Fld.read_ok (MsgDesc.fits_mem hfa hp) hsa (hv p hp))
    (List.replicate size 0) (by simp)
  have hl : b.length = size := by have := h2.1; simpa using this.symm
  refine ⟨b, h1, hl, ?_, h2, fun n f hm => (h3 _ hm).2⟩
  rw [tryFrom_iff]
  exact ⟨by omega, fun p hp => (h3 p hp).1⟩

theorem convertArray_eq (d : MsgDesc) (src dst : Fmt) (size : Nat) (a : Buf src)
    (h : d.minSize dst ≤ size) :
    d.convertArray src dst size a = convertProps src dst d.props a (List.replicate size 0) ∧
    d.tryConvertArray src dst size a = convertProps src dst d.props a (List.replicate size 0) ∧
    (size = d.minSize dst → d.convertVec src dst a =
      convertProps src dst d.props a (List.replicate size 0)) := by
  refine ⟨if_neg (by omega), ?_, ?_⟩
  · unfold MsgDesc.tryConvertArray fixedTryResize
    rw [if_neg (by simp; omega)]; rfl
  · rintro rfl
    unfold MsgDesc.convertVec vecResize
    simp

theorem MsgDesc.fits_mono {d : MsgDesc} {m : Fmt} {s t : Nat} (h : d.fits m s = true)
    (hst : s ≤ t) : d.fits m t = true := by
  unfold MsgDesc.fits at h ⊢
  rw [List.all_eq_true] at h ⊢
  intro p hp
  have := h p hp
  cases m <;> simp only [Fld.fits, Bool.and_eq_true, decide_eq_true_eq] at this ⊢ <;>
    exact ⟨this.1, Nat.le_trans this.2 hst⟩

theorem hybrid_fits_ump {d : MsgDesc} (hd : d ∈ Msg.hybridAll) (size : Nat)
    (h : d.umpSize ≤ size) : d.fits .ump size = true := by
  have : ∀ d ∈ Msg.hybridAll, d.fits .ump d.umpSize = true := by decide +kernel
  exact MsgDesc.fits_mono (this d hd) h

theorem hybrid_fits_bytes {d : MsgDesc} (hd : d ∈ Msg.hybridAll) (size : Nat)
    (h : d.room8 ≤ size) : d.fits .bytes size = true := by
  have : ∀ d ∈ Msg.hybridAll, d.fits .bytes d.room8 = true := by decide +kernel
  exact MsgDesc.fits_mono (this d hd) h

theorem hybrid_room {d : MsgDesc} (hd : d ∈ Msg.hybridAll) : d.minSize .bytes ≤ d.room8 := by
  have : ∀ d ∈ Msg.hybridAll, d.minSize .bytes ≤ d.room8 := by decide +kernel
  exact this d hd

theorem room8_le {d : MsgDesc} {a : Buf .bytes} (h : d.minSize .bytes ≤ a.length)
    (h3 : d.name = "system_common::SongPositionPointer" → 3 ≤ a.length) :
    d.room8 ≤ a.length := by
  unfold MsgDesc.room8
  split
  · next h' => exact h3 h'
  · exact h

/-- The group of every message with both representations. -/
theorem hybrid_group {d : MsgDesc} (hd : d ∈ Msg.hybridAll) :
    ("group", Fld.schema .u4 ⟨0x0F000000, 0, 0, 0⟩) ∈ d.props := by
  have : ∀ d ∈ Msg.hybridAll, d.props.any (fun p => p.1 == "group" &&
      (match p.2 with
        | .schema .u4 ⟨0x0F000000, 0, 0, 0⟩ => true
        | _ => false)) = true := by decide +kernel
  have := this d hd
  rw [List.any_eq_true] at this
  obtain ⟨⟨n, f⟩, h1, h2⟩ := this
  simp only [Bool.and_eq_true, beq_iff_eq] at h2
  obtain ⟨rfl, h3⟩ := h2
  have : f = Fld.schema .u4 ⟨0x0F000000, 0, 0, 0⟩ := by
    split at h3
    · rfl
    · cases h3
  exact this ▸ h1

/-- C13, bytes to UMP: the result is a valid UMP message in group 0, with the same value of
every property; arrays succeed exactly when the word fits. -/
theorem C13_bytes_to_ump {d : MsgDesc} (hd : d ∈ Msg.hybridAll) (a : Buf .bytes)
    (ha : d.tryFrom .bytes a = .ok a)
    (h3 : d.name = "system_common::SongPositionPointer" → 3 ≤ a.length) (size : Nat) :
    (size < d.umpSize → d.tryConvertArray .bytes .ump size a = .err .bufferOverflow) ∧
    (d.umpSize ≤ size → ∃ u, d.tryConvertArray .bytes .ump size a = .ok u ∧
      d.convertArray .bytes .ump size a = .ok u ∧
      (size = d.umpSize → d.convertVec .bytes .ump a = .ok u) ∧
      u.length = size ∧ d.tryFrom .ump u = .ok u ∧
      Fld.read .ump (.schema .u4 ⟨0x0F000000, 0, 0, 0⟩) u = .ok 0 ∧
      ∀ n f, (n, f) ∈ d.props → f.accessible .bytes = true →
        f.read .ump u = f.read .bytes a) := by
  constructor
  · intro h
    unfold MsgDesc.tryConvertArray fixedTryResize
    rw [if_pos (show d.minSize .ump > _ by simpa using (show d.minSize .ump > size from h))]; rfl
  · intro h
    obtain ⟨hl, _⟩ := (tryFrom_iff d .bytes a).mp ha
    obtain ⟨_, sa, hfa, hsa⟩ := good_bytes hd hl h3
    obtain ⟨u, h1, h2, h4, _, h5⟩ := convert_core hd .bytes .ump a hfa hsa ha size
      (hybrid_fits_ump hd size h) h
    obtain ⟨e1, e2, e3⟩ := convertArray_eq d .bytes .ump size a h
    refine ⟨u, e2.trans h1, e1.trans h1, fun h => (e3 h).trans h1, h2, h4, ?_, ?_⟩
    · exact h5 _ _ (hybrid_group hd) rfl
    · intro n f hm hacc
      refine h5 n f hm ?_
      simp only [Fld.accessible, Bool.and_eq_true] at hacc ⊢
      exact ⟨hacc.1, trivial⟩

example : Msg.cv1NoteOn.tryConvertArray .bytes .ump 0 [0x93, 0x3C, 0x7F] = .err .bufferOverflow :=
  (C13_bytes_to_ump (d := Msg.cv1NoteOn) (by decide +kernel) [0x93, 0x3C, 0x7F] (by decide +kernel)
    (fun h => absurd h (by decide)) 0).1 (by decide)

/-- C13, UMP to bytes: the result is a valid byte message with the same value of every
property (the group does not exist there).  For `SongPositionPointer` the array must have
three bytes, and the conversion to a `Vec` panics (next theorem). -/
theorem C13_ump_to_bytes_partial {d : MsgDesc} (hd : d ∈ Msg.hybridAll) (a : Buf .ump)
    (ha : d.tryFrom .ump a = .ok a) (size : Nat) :
    (size < d.minSize .bytes → d.tryConvertArray .ump .bytes size a = .err .bufferOverflow) ∧
    (d.room8 ≤ size → ∃ u, d.tryConvertArray .ump .bytes size a = .ok u ∧
      d.convertArray .ump .bytes size a = .ok u ∧
      (size = d.minSize .bytes → d.convertVec .ump .bytes a = .ok u) ∧
      u.length = size ∧ d.tryFrom .bytes u = .ok u ∧
      ∀ n f, (n, f) ∈ d.props → f.accessible .bytes = true →
        f.read .bytes u = f.read .ump a) := by
  constructor
  · intro h
    unfold MsgDesc.tryConvertArray fixedTryResize
    rw [if_pos (by simpa using h)]; rfl
  · intro h
    obtain ⟨hl, _⟩ := (tryFrom_iff d .ump a).mp ha
    have hm := Nat.le_trans (hybrid_room hd) h
    obtain ⟨u, h1, h2, h4, _, h5⟩ := convert_core hd .ump .bytes a
      (hybrid_fits_ump hd d.umpSize (Nat.le_refl _)) hl ha size (hybrid_fits_bytes hd size h) hm
    obtain ⟨e1, e2, e3⟩ := convertArray_eq d .ump .bytes size a hm
    exact ⟨u, e2.trans h1, e1.trans h1, fun h => (e3 h).trans h1, h2, h4, h5⟩

example : Msg.cv1NoteOn.tryConvertArray .ump .bytes 2 [0x2A933C7F] = .err .bufferOverflow :=
  (C13_ump_to_bytes_partial (d := Msg.cv1NoteOn) (by decide +kernel) [0x2A933C7F] (by decide +kernel)
    2).1 (by decide)

/-- C13 is violated for `SongPositionPointer`: converting any UMP one to a byte `Vec`, or a
two-byte one to UMP, panics. -/
theorem C13_song_position_pointer_violation (w : BitVec 32) (x : BitVec 8) :
    Msg.sysSongPositionPointer.convertVec .ump .bytes [w] = .panic ∧
    Msg.sysSongPositionPointer.convertVec .bytes .ump [0xF2, x] = .panic := ⟨rfl, rfl⟩

theorem usedBits_bytes {d : MsgDesc} (hd : d ∈ Msg.hybridAll) {i : Nat} (hi : i < 3) :
    usedBits .bytes d.props i = Convert.byteMask d.name i := by
  have : ∀ d ∈ Msg.hybridAll, ∀ i < 3,
      usedBits .bytes d.props i = Convert.byteMask d.name i := by decide +kernel
  exact this d hd i hi

theorem usedBits_ump {d : MsgDesc} (hd : d ∈ Msg.hybridAll) :
    usedBits .ump d.props 0 = Convert.umpMask d.name ||| 0x0F000000 := by
  have : ∀ d ∈ Msg.hybridAll,
      usedBits .ump d.props 0 = Convert.umpMask d.name ||| 0x0F000000 := by decide +kernel
  exact this d hd

/-- Properties read equal in two valid buffers: their bits agree. -/
theorem agree_all {d : MsgDesc} (hd : d ∈ Msg.hybridAll) {m : Fmt} {a b : Buf m} {sa : Nat}
    (hfa : d.fits m sa = true) (hsa : sa ≤ a.length)
    (ha : d.tryFrom m a = .ok a) (hb : d.tryFrom m b = .ok b) {p : String × Fld}
    (hp : p ∈ d.props) (h : p.2.accessible m = true → p.2.read m b = p.2.read m a)
    (hz : p.2.accessible m = false → p.2.isConst = false → ∀ i, p.2.bits m i = 0) :
    Agree (p.2.bits m) b a := by
  have hdual := List.all_eq_true.mp (List.all_eq_true.mp table_dual d hd) p hp
  have va := ((tryFrom_iff d m a).mp ha).2 p hp
  have vb := ((tryFrom_iff d m b).mp hb).2 p hp
  cases hacc : p.2.accessible m with
  | true =>
    obtain ⟨v, hv⟩ := Fld.read_ok (MsgDesc.fits_mem hfa hp) hsa va
    exact Fld.agree p.2 hdual ((h hacc).trans hv) hv vb va
  | false =>
    cases hc : p.2.isConst with
    | false => intro i hi; exact absurd (hz hacc hc i) hi
    | true =>
      obtain ⟨n, f⟩ := p
      have key : ∀ x : Buf m, ∃ v : f.Ty, f.read m x = .ok v ∧ ∀ w : f.Ty, w = v := by
        intro x
        cases f <;> first | cases hdual | cases hc | skip
        all_goals first
          | (cases m <;> exact ⟨(), rfl, fun _ => rfl⟩)
      obtain ⟨v, e1, e2⟩ := key a
      obtain ⟨w, e3, e4⟩ := key b
      exact Fld.agree f hdual (e3.trans (by rw [e2 w])) e1 vb va

theorem dual_zero8 {f : Fld} (hd : f.dual = true) (ha : f.accessible .bytes = false)
    (hc : f.isConst = false) (i : Nat) : f.bits .bytes i = 0 := by
  cases f
  case schema r u =>
    show (BytesSchema.mk 0 0 0).at i = 0
    match i with | 0 | 1 | 2 | i + 3 => rfl
  case hybrid => exact absurd (show true = false from ha) (by decide)
  case umpType | cvStatus | sysStatus => exact absurd (show true = false from hc) (by decide)
  all_goals exact absurd (show false = true from hd) (by decide)

theorem const_of_inaccessible {f : Fld} (ha : f.accessible .ump = false) : f.isConst = true := by
  simpa [Fld.accessible] using ha

/-- C13, bytes to UMP and back: every byte comes back with its meaningful bits, and
everything else is cleared. -/
theorem C13_bytes_roundtrip {d : MsgDesc} (hd : d ∈ Msg.hybridAll) (a : Buf .bytes)
    (ha : d.tryFrom .bytes a = .ok a)
    (h3 : d.name = "system_common::SongPositionPointer" → 3 ≤ a.length)
    (s1 s2 : Nat) (h1 : d.umpSize ≤ s1) (h2 : d.room8 ≤ s2) (u : Buf .ump) (a' : Buf .bytes)
    (hu : d.tryConvertArray .bytes .ump s1 a = .ok u)
    (ha' : d.tryConvertArray .ump .bytes s2 u = .ok a') :
    d.tryFrom .bytes a' = .ok a' ∧ a'.length = s2 ∧
    ∀ i, i < 3 → ∀ x, a[i]? = some x → i < s2 →
      a'[i]? = some (x &&& Convert.byteMask d.name i) := by
  obtain ⟨_, hB⟩ := C13_bytes_to_ump hd a ha h3 s1
  obtain ⟨u', hu1, _, _, hu2, hu3, _, hu4⟩ := hB h1
  rw [hu] at hu1; cases hu1
  obtain ⟨hl, _⟩ := (tryFrom_iff d .bytes a).mp ha
  obtain ⟨_, sa, hfa, hsa⟩ := good_bytes hd hl h3
  obtain ⟨hlu, _⟩ := (tryFrom_iff d .ump u).mp hu3
  obtain ⟨b, c1, c2, c3, c4, c5⟩ := convert_core hd .ump .bytes u
    (hybrid_fits_ump hd d.umpSize (Nat.le_refl _)) hlu hu3 s2 (hybrid_fits_bytes hd s2 h2)
    (Nat.le_trans (hybrid_room hd) h2)
  rw [(convertArray_eq d .ump .bytes s2 u (Nat.le_trans (hybrid_room hd) h2)).2.1, c1] at ha'
  cases ha'
  refine ⟨c3, c2, ?_⟩
  intro i hi x hx hi2
  obtain ⟨hia, rfl⟩ := List.getElem?_eq_some_iff.mp hx
  rw [← usedBits_bytes hd hi]
  refine eq_masked c4 ?_ hi2 hia
  intro p hp
  refine agree_all hd hfa hsa ha c3 hp ?_ ?_
  · intro hacc
    rw [c5 p.1 p.2 hp hacc, hu4 p.1 p.2 hp hacc]
  · exact fun hacc hc => dual_zero8 (List.all_eq_true.mp (List.all_eq_true.mp table_dual d hd) p hp)
      hacc hc

example : Msg.cv1NoteOn.tryFrom .bytes [0x93, 0x3C, 0x7F, 0] = .ok [0x93, 0x3C, 0x7F, 0] :=
  (C13_bytes_roundtrip (d := Msg.cv1NoteOn) (by decide +kernel) [0x93, 0x3C, 0xFF] (by decide +kernel)
    (fun h => absurd h (by decide)) 1 4 (by decide) (by decide) [0x20933C7F] [0x93, 0x3C, 0x7F, 0]
    (by decide +kernel) (by decide +kernel)).1

/-- C13: on well-formed MIDI 1.0 messages (data bytes below 0x80) the bytes come back
identically. -/
theorem C13_bytes_roundtrip_exact {d : MsgDesc} (hd : d ∈ Msg.hybridAll) (a : Buf .bytes)
    (ha : d.tryFrom .bytes a = .ok a) (hl : 1 + Convert.dataBytes d.name ≤ a.length)
    (hdata : ∀ i x, 1 ≤ i → a[i]? = some x → x.toNat < 0x80)
    (s1 s2 : Nat) (h1 : d.umpSize ≤ s1) (h2 : d.room8 ≤ s2) (u : Buf .ump) (a' : Buf .bytes)
    (hu : d.tryConvertArray .bytes .ump s1 a = .ok u)
    (ha' : d.tryConvertArray .ump .bytes s2 u = .ok a') :
    a'.take (1 + Convert.dataBytes d.name) = a.take (1 + Convert.dataBytes d.name) := by
  have h3 : d.name = "system_common::SongPositionPointer" → 3 ≤ a.length := by
    intro h; rw [h] at hl; exact hl
  obtain ⟨_, hlen, hb⟩ := C13_bytes_roundtrip hd a ha h3 s1 s2 h1 h2 u a' hu ha'
  have hdb : Convert.dataBytes d.name ≤ 2 := by
    unfold Convert.dataBytes
    split
    · omega
    · split <;> omega
  have hr : 1 + Convert.dataBytes d.name ≤ d.room8 := by
    have : ∀ d ∈ Msg.hybridAll, 1 + Convert.dataBytes d.name ≤ d.room8 := by decide +kernel
    exact this d hd
  apply List.ext_getElem?
  intro i
  rw [List.getElem?_take, List.getElem?_take]
  split
  · next hi =>
    have hx := List.getElem?_eq_getElem (show i < a.length by omega)
    rw [hb i (by omega) _ hx (by omega), hx]
    congr 1
    unfold Convert.byteMask
    split
    · apply BitVec.eq_of_getLsbD_eq; intro k hk
      rw [BitVec.getLsbD_and, show (0xFF : BitVec 8) = BitVec.allOnes 8 from rfl,
        BitVec.getLsbD_allOnes]
      simp [hk]
    · next h0 =>
      rw [if_pos (by omega)]
      have := hdata i _ (by omega) hx
      apply BitVec.eq_of_toNat_eq
      rw [BitVec.toNat_and, show (0x7F : BitVec 8).toNat = 2 ^ 7 - 1 from rfl,
        Nat.and_two_pow_sub_one_eq_mod]
      exact Nat.mod_eq_of_lt this
  · rfl

example : ([0x93, 0x3C, 0x7F, 0] : List (BitVec 8)).take 3 = ([0x93, 0x3C, 0x7F] : List (BitVec 8)).take 3 :=
  C13_bytes_roundtrip_exact (d := Msg.cv1NoteOn) (by decide +kernel) [0x93, 0x3C, 0x7F]
    (by decide +kernel) (by decide +kernel)
    (fun i x h1 h => by
      match i, h1, h with
      | 1, _, h => cases h; decide
      | 2, _, h => cases h; decide
      | n + 3, _, h => simp at h) 1 4 (by decide) (by decide) [0x20933C7F] [0x93, 0x3C, 0x7F, 0]
    (by decide +kernel) (by decide +kernel)

/-- C13, UMP to bytes and back: the word comes back with its meaningful bits, the group
and all reserved bits are cleared. -/
theorem C13_ump_roundtrip {d : MsgDesc} (hd : d ∈ Msg.hybridAll) (w : BitVec 32) (rest : Buf .ump)
    (ha : d.tryFrom .ump (w :: rest) = .ok (w :: rest))
    (s1 s2 : Nat) (h1 : d.room8 ≤ s1) (h2 : d.umpSize ≤ s2) (u : Buf .bytes) (a' : Buf .ump)
    (hu : d.tryConvertArray .ump .bytes s1 (w :: rest) = .ok u)
    (ha' : d.tryConvertArray .bytes .ump s2 u = .ok a') :
    d.tryFrom .ump a' = .ok a' ∧ a'.length = s2 ∧
    a'[0]? = some (w &&& Convert.umpMask d.name) := by
  obtain ⟨_, hB⟩ := C13_ump_to_bytes_partial hd (w :: rest) ha s1
  obtain ⟨u', hu1, _, _, hu2, hu3, hu4⟩ := hB h1
  rw [hu] at hu1; cases hu1
  have hus : d.umpSize = 1 := by
    have : ∀ d ∈ Msg.hybridAll, d.umpSize = 1 := by decide +kernel
    exact this d hd
  obtain ⟨b, c1, c2, c3, c4, c5⟩ := convert_core hd .bytes .ump u
    (hybrid_fits_bytes hd s1 h1) (by omega) hu3 s2 (hybrid_fits_ump hd s2 h2) h2
  rw [(convertArray_eq d .bytes .ump s2 u h2).2.1, c1] at ha'
  cases ha'
  refine ⟨c3, c2, ?_⟩
  -- compare with the word whose group is cleared
  have hg := c5 _ _ (hybrid_group hd) rfl
  have hg : umpRead .u4 ⟨0x0F000000, 0, 0, 0⟩ a' = .ok 0 := hg
  have hb0 : ∃ y, a'[0]? = some y := ⟨a'[0]'(by omega), List.getElem?_eq_getElem (by omega)⟩
  obtain ⟨y, hy⟩ := hb0
  have hgy : y &&& 0x0F000000 = 0 := by
    have e : umpRead .u4 ⟨0x0F000000, 0, 0, 0⟩ [(0 : BitVec 32)] = .ok 0 := rfl
    have := umpRead_inj (r := .u4) rfl hg e 0 (by decide)
    rw [hy] at this
    have := Option.some.inj this
    exact this.trans (by decide)
  rw [hy]
  congr 1
  have hl : a'.length = s2 := c2
  -- bits under the non-group mask agree with `w`
  have hon : ∀ p ∈ d.props, p.1 ≠ "group" → Agree (p.2.bits .ump) a' (w :: rest) := by
    intro p hp hne
    refine agree_all hd (hybrid_fits_ump hd d.umpSize (Nat.le_refl _))
      (by rw [hus]; simp) ha c3 hp ?_ ?_
    · intro hacc
      have hacc8 : p.2.accessible .bytes = true := by
        have : ∀ d ∈ Msg.hybridAll, ∀ p ∈ d.props, p.1 ≠ "group" →
            p.2.accessible .ump = true → p.2.accessible .bytes = true := by decide +kernel
        exact this d hd p hp hne hacc
      rw [c5 p.1 p.2 hp hacc, hu4 p.1 p.2 hp hacc8]
    · intro hacc hc
      rw [const_of_inaccessible hacc] at hc; cases hc
  have hmask : ∀ k, (Convert.umpMask d.name).getLsbD k = true →
      ∃ p ∈ d.props, p.1 ≠ "group" ∧ (p.2.bits .ump 0).getLsbD k = true := by
    intro k hk
    have hk32 : k < 32 := by
      rcases Nat.lt_or_ge k 32 with h | h
      · exact h
      · rw [BitVec.getLsbD_of_ge _ _ h] at hk; cases hk
    have : ∀ d ∈ Msg.hybridAll, ∀ k < 32, (Convert.umpMask d.name).getLsbD k = true →
      ∃ p ∈ d.props, p.1 ≠ "group" ∧ (p.2.bits .ump 0).getLsbD k = true := by decide +kernel
    exact this d hd k hk32 hk
  have hoff := c4.2 0 (by simp; omega) (by omega)
  rw [List.getElem_replicate, (List.getElem_eq_iff (h := by omega)).mpr hy, usedBits_ump hd] at hoff
  apply BitVec.eq_of_getLsbD_eq
  intro k hk
  rw [BitVec.getLsbD_and]
  cases hm : (Convert.umpMask d.name).getLsbD k with
  | true =>
    obtain ⟨p, hp, hne, hpk⟩ := hmask k hm
    have := hon p hp hne 0 (by intro h; rw [h] at hpk; simp at hpk)
    rw [hy] at this
    have := congrArg (fun z : BitVec 32 => z.getLsbD k) (Option.some.inj this)
    simp only [BitVec.getLsbD_and, hpk, Bool.and_true] at this
    simp [this]
  | false =>
    have e1 := congrArg (fun z : BitVec 32 => z.getLsbD k) hgy
    have e2 := congrArg (fun z : BitVec 32 => z.getLsbD k) hoff
    simp only [BitVec.getLsbD_and, BitVec.getLsbD_not, BitVec.getLsbD_or, hk, decide_true,
      Bool.true_and, hm, Bool.false_or] at e1 e2
    revert e1 e2
    cases y.getLsbD k <;> cases (0x0F000000 : BitVec 32).getLsbD k <;> simp

/-- Conversion of real messages, both ways. -/
example : Msg.cv1NoteOn.tryConvertArray .bytes .ump 1 [0x93, 0x3C, 0x7F] = .ok [0x20933C7F] ∧
    Msg.cv1NoteOn.tryConvertArray .ump .bytes 3 [0x2A933C7F] = .ok [0x93, 0x3C, 0x7F] ∧
    Msg.cv1NoteOn.tryConvertArray .ump .bytes 2 [0x2A933C7F] = .err .bufferOverflow ∧
    Msg.cv1NoteOn.tryFrom .bytes [0x93, 0x3C, 0x7F] = .ok [0x93, 0x3C, 0x7F] := by
  decide +kernel

end Midi2
