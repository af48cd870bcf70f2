import Verif.Spec.ConvertWords
import Verif.Lemmas.ConvertWords

/-!
# C13: conversion, word for word

The buffers that conversion between bytes and UMP leaves behind, in closed form.
-/

namespace Midi2

theorem umpWord_and (t g t' g' : BitVec 4) (x y z x' y' z' : BitVec 8) :
    umpWord t g x y z &&& umpWord t' g' x' y' z' =
      umpWord (t &&& t') (g &&& g') (x &&& x') (y &&& y') (z &&& z') := by
  apply BitVec.eq_of_getLsbD_eq
  intro k hk
  simp only [umpWord, BitVec.getLsbD_append, BitVec.getLsbD_and]
  repeat' split
  all_goals rfl

theorem umpMask_eq (name : String) : Convert.umpMask name ||| 0x0F000000 =
    umpWord 15 15 (Convert.byteMask name 0) (Convert.byteMask name 1) (Convert.byteMask name 2) := by
  unfold Convert.umpMask Convert.byteMask
  have : Convert.dataBytes name = 0 ∨ Convert.dataBytes name = 1 ∨ Convert.dataBytes name = 2 := by
    unfold Convert.dataBytes
    split
    · exact .inr (.inl rfl)
    · split
      · exact .inl rfl
      · exact .inr (.inr rfl)
  rcases this with h | h | h <;> rw [h] <;> decide

theorem append_toNat {n k : Nat} (x : BitVec n) (y : BitVec k) :
    (x ++ y).toNat = x.toNat * 2 ^ k + y.toNat := by
  rw [BitVec.toNat_append, ← Nat.shiftLeft_add_eq_or_of_lt y.isLt, Nat.shiftLeft_eq]

theorem umpWord_toNat (t g : BitVec 4) (x y z : BitVec 8) : (umpWord t g x y z).toNat =
    t.toNat * 2 ^ 28 + g.toNat * 2 ^ 24 + x.toNat * 2 ^ 16 + y.toNat * 2 ^ 8 + z.toNat := by
  unfold umpWord
  rw [append_toNat, append_toNat, append_toNat, append_toNat]
  omega

theorem dataBytes_le (name : String) : Convert.dataBytes name ≤ 2 := by
  unfold Convert.dataBytes
  split
  · omega
  · split <;> omega

theorem cleared_byte (name : String) (a : List (BitVec 8)) (i : Nat) :
    Convert.byte (Convert.cleared name a) i = (byteOr0 a i &&& Convert.byteMask name i).toNat := by
  unfold Convert.byte Convert.cleared byteOr0
  rw [List.getElem?_mapIdx]
  cases a[i]? with
  | none => simp
  | some v => rfl

/-- The status byte tells the packet type. -/
theorem packetType_status {d : MsgDesc} (hd : d ∈ Msg.hybridAll) {a : Buf .bytes}
    (ha : d.tryFrom .bytes a = .ok a) :
    d.packetType.toNat = if (byteOr0 a 0).toNat < 0xF0 then 2 else 1 := by
  have hwf : d.WellFormed .bytes a := by
    refine Classical.byContradiction fun hc => ?_
    rw [(C07_bytes_accepts_exactly hd a).2 hc] at ha
    cases ha
  have htab : ∀ d ∈ Msg.hybridAll,
      (d.packetType = 2 ∧ ∃ p ∈ d.props, ∃ s ∈ (List.range 15).map (BitVec.ofNat 4), p.2 = .cvStatus s) ∨
      (d.packetType = 1 ∧ ∃ p ∈ d.props, ∃ s ∈ (List.range 16).map (fun n => BitVec.ofNat 8 (0xF0 + n)),
        p.2 = .sysStatus s) := by decide +kernel
  have h0 : ∃ x, a[0]? = some x :=
    ⟨a[0]'(Nat.lt_of_lt_of_le (room_pos hd).1 hwf.1), List.getElem?_eq_getElem _⟩
  obtain ⟨x, hx⟩ := h0
  have hb : byteOr0 a 0 = x := by rw [byteOr0, hx]; rfl
  rw [hb]
  rcases htab d hd with ⟨e, p, hp, s, hs, hf⟩ | ⟨e, p, hp, s, hs, hf⟩
  · have hl := hwf.2 p hp
    rw [hf] at hl
    have hl : (a[0]?).map (fun x => x.toNat / 16) = some s.toNat := hl
    rw [hx] at hl
    have hl : x.toNat / 16 = s.toNat := Option.some.inj hl
    have : s.toNat ≤ 14 := by
      have : ∀ s ∈ (List.range 15).map (BitVec.ofNat 4), s.toNat ≤ 14 := by decide
      exact this s hs
    rw [e, if_pos (by omega)]
    rfl
  · have hl := hwf.2 p hp
    rw [hf] at hl
    have hl : (a[0]?).map (fun x => x.toNat) = some s.toNat := hl
    rw [hx] at hl
    have hl : x.toNat = s.toNat := Option.some.inj hl
    have : 0xF0 ≤ s.toNat := by
      have : ∀ s ∈ (List.range 16).map (fun n => BitVec.ofNat 8 (0xF0 + n)), 0xF0 ≤ s.toNat := by decide
      exact this s hs
    rw [e, if_neg (by omega)]
    rfl

/-- C13, bytes to UMP in closed form: the first word is the standard's word for the message, in
group 0, with the bits cleared that have no meaning, and every word after it is zero. -/
theorem C13_bytes_to_ump_words {d : MsgDesc} (hd : d ∈ Msg.hybridAll) (a : Buf .bytes)
    (ha : d.tryFrom .bytes a = .ok a) (h : ¬ ShortPointer d a) (size : Nat) (hs : d.umpSize ≤ size) :
    ∃ u, d.tryConvertArray .bytes .ump size a = .ok u ∧
      u.map BitVec.toNat =
        Convert.word (Convert.cleared d.name a) :: List.replicate (size - 1) 0 := by
  have hl := ((tryFrom_iff d .bytes a).mp ha).1
  have h3 := not_short hd hl h
  obtain ⟨u, e1, -, -, hlen, hacc, hg, hread⟩ := (C13_bytes_to_ump hd a ha h3 size).2 hs
  refine ⟨u, e1, ?_⟩
  obtain ⟨_, sa, hfa, hsa⟩ := good_bytes hd hl h3
  obtain ⟨b, c1, c2, c3, c4, c5⟩ := convert_core hd .bytes .ump a hfa hsa ha size
    (hybrid_fits_ump hd size hs) hs
  rw [(convertArray_eq d .bytes .ump size a hs).2.1, c1] at e1
  cases e1
  have h1 := (room_pos hd).2
  have hpos := (room_pos hd).1
  have hl0 : 0 < a.length := Nat.lt_of_lt_of_le hpos hl
  have hx : a[0]? = some (byteOr0 a 0) := by
    rw [byteOr0, List.getElem?_eq_getElem hl0]; rfl
  have hW := (accepted_across hd hl (y := byteOr0 a 1) (z := byteOr0 a 2) hx 0 []).mp ha
  have key : u[0]? = some (umpWord d.packetType 0 (byteOr0 a 0) (byteOr0 a 1) (byteOr0 a 2) &&&
      usedBits .ump d.props 0) := by
    refine eq_masked (m := .ump) (i := 0) (size := size)
      (a := [umpWord d.packetType 0 (byteOr0 a 0) (byteOr0 a 1) (byteOr0 a 2)])
      c4 (fun p hp => ?_) (by omega) (Nat.zero_lt_one)
    refine agree_all hd (hybrid_fits_ump hd d.umpSize (Nat.le_refl _)) (by rw [h1]; simp) hW c3 hp
      (fun hac => ?_) (fun hac hc => by rw [const_of_inaccessible hac] at hc; cases hc)
    rcases hybrid_fields hd hp with e | e | e | ⟨s, e⟩ | ⟨s, e⟩ | e
    · rw [e] at hac; cases hac
    · rw [e] at hac; cases hac
    · obtain ⟨n, f⟩ := p
      simp only at e
      subst e
      rw [hg]
      have := (umpWord_parts d.packetType 0 (byteOr0 a 0) (byteOr0 a 1) (byteOr0 a 2)).2.1
      exact congrArg Res.ok this.symm
    · rw [e] at hac; cases hac
    · rw [e] at hac; cases hac
    · have hacc8 : p.2.accessible .bytes = true := by
        rcases e with e | e | e | e <;> rw [e] <;> rfl
      rw [hread p.1 p.2 hp hacc8]
      obtain ⟨v, hv⟩ := Fld.read_ok (MsgDesc.fits_mem hfa hp) hsa
        (((tryFrom_iff d .bytes a).mp ha).2 p hp)
      rw [hv, read_across e (bytes3 a) _ _ [] hv]
  have hu0 : u[0]? = some (umpWord d.packetType 0 (byteOr0 a 0 &&& Convert.byteMask d.name 0)
      (byteOr0 a 1 &&& Convert.byteMask d.name 1) (byteOr0 a 2 &&& Convert.byteMask d.name 2)) := by
    rw [key, usedBits_ump hd, umpMask_eq, umpWord_and]
    congr 2
    have : d.packetType = 1 ∨ d.packetType = 2 := by unfold MsgDesc.packetType; split <;> simp
    rcases this with h | h <;> rw [h] <;> rfl
  have hrest : ∀ i, 1 ≤ i → i < size → u[i]? = some 0 := by
    intro i hi hi'
    have hz : usedBits .ump d.props i = 0 := by
      have : ∀ d ∈ Msg.hybridAll, ∀ p ∈ d.props, p.2.umpBits.d2 = 0 ∧ p.2.umpBits.d3 = 0 ∧
          p.2.umpBits.d4 = 0 := by decide +kernel
      have hz := this d hd
      generalize d.props = ps at hz
      induction ps with
      | nil => rfl
      | cons p ps ih =>
        have e := ih fun q hq => hz q (List.mem_cons_of_mem _ hq)
        obtain ⟨z1, z2, z3⟩ := hz p List.mem_cons_self
        show p.2.umpBits.at i ||| usedBits .ump ps i = 0
        rw [e]
        have : p.2.umpBits.at i = 0 := by
          match i, hi with
          | 1, _ => exact z1
          | 2, _ => exact z2
          | 3, _ => exact z3
          | i + 4, _ => rfl
        rw [this]
        rfl
    have := c4.2 i (by simpa using hi') (by omega)
    rw [hz, List.getElem_replicate] at this
    rw [List.getElem?_eq_getElem (by omega)]
    congr 1
    have e := this.symm
    simpa using e
  refine List.ext_getElem? fun i => ?_
  rw [List.getElem?_map]
  match i with
  | 0 =>
    rw [hu0]
    simp only [Option.map_some, List.getElem?_cons_zero, Option.some.injEq]
    rw [umpWord_toNat, packetType_status hd ha]
    unfold Convert.word
    rw [cleared_byte, cleared_byte, cleared_byte]
    have : byteOr0 a 0 &&& Convert.byteMask d.name 0 = byteOr0 a 0 := by
      show _ &&& BitVec.allOnes 8 = _
      exact BitVec.and_allOnes
    rw [this]
    simp
  | i + 1 =>
    rw [List.getElem?_cons_succ]
    by_cases hi : i + 1 < size
    · rw [hrest (i + 1) (by omega) hi, List.getElem?_replicate, if_pos (by omega)]
      rfl
    · rw [List.getElem?_eq_none (by omega), List.getElem?_eq_none (by simp; omega)]
      rfl

example : Msg.cv1NoteOn.tryConvertArray .bytes .ump 2 [0x93, 60, 0xE4, 7] = .ok [0x20933C64, 0] ∧
    Convert.cleared Msg.cv1NoteOn.name [0x93, 60, 0xE4, 7] = [0x93, 60, 100, 0] ∧
    Convert.word [0x93, 60, 100, 0] = 0x20933C64 ∧ Convert.word [0xF3, 9] = 0x10F30900 := by
  decide +kernel

/-- C13, UMP to bytes in closed form: the bytes are octets 1 to 3 of the word with the bits cleared
that have no meaning, and every byte after them is zero. -/
theorem C13_ump_to_bytes_words {d : MsgDesc} (hd : d ∈ Msg.hybridAll) (w : Buf .ump)
    (hw : d.tryFrom .ump w = .ok w) (size : Nat) (hs : d.minSize .bytes ≤ size)
    (h : ¬ ShortPointer d (List.replicate size 0)) :
    ∃ u, d.tryConvertArray .ump .bytes size w = .ok u ∧ u.length = size ∧
      ∀ i, i < size →
        u[i]? = some (BitVec.ofNat 8 (octetVal w (i + 1)) &&& Convert.byteMask d.name i) := by
  obtain ⟨u, e1, -, -, hlen, hacc, hread⟩ := (C13_ump_to_bytes_exactly hd w hw size).2.2.2 hs h
  refine ⟨u, e1, hlen, ?_⟩
  have hroom : d.room8 ≤ size := by
    have : ∀ d ∈ Msg.hybridAll, d.room8 = if d.name = "system_common::SongPositionPointer" then 3
        else d.minSize .bytes := by decide +kernel
    rw [this d hd]
    split
    · next hn =>
      have h2 := shortPointer_eq hd hn
      subst h2
      have hs : 2 ≤ size := hs
      have : ¬ (List.replicate size (0 : BitVec 8)).length = 2 := fun e => h ⟨rfl, e⟩
      simp only [List.length_replicate] at this
      omega
    · exact hs
  have hlw := ((tryFrom_iff d .ump w).mp hw).1
  have h1 := (room_pos hd).2
  obtain ⟨b, c1, c2, c3, c4, c5⟩ := convert_core hd .ump .bytes w
    (hybrid_fits_ump hd d.umpSize (Nat.le_refl _)) hlw hw size (hybrid_fits_bytes hd size hroom) hs
  rw [(convertArray_eq d .ump .bytes size w hs).2.1, c1] at e1
  cases e1
  match w, hlw with
  | [], hlw => exact absurd hlw (by show ¬ d.umpSize ≤ 0; omega)
  | v :: rest, _ =>
    have hv := umpWord_bits v
    have ht : U32.nibble v 0 = d.packetType := by
      have hall : d ∈ Msg.all := by
        have : ∀ d ∈ Msg.hybridAll, d ∈ Msg.all := by decide +kernel
        exact this d hd
      have hwf : d.WellFormed .ump (v :: rest) := by
        refine Classical.byContradiction fun hc => ?_
        rw [(C07_ump_accepts_exactly hall _).2 hc] at hw
        cases hw
      have : ∀ d ∈ Msg.hybridAll, ∃ p ∈ d.props, p.2 = .umpType d.packetType := by decide +kernel
      obtain ⟨p, hp, e⟩ := this d hd
      have hl := hwf.2 p hp
      rw [e] at hl
      have hl : fieldAt (v :: rest) 0 (4 * 0) 4 = _ := hl
      rw [field_nibble _ _ 0 (by omega)] at hl
      exact BitVec.eq_of_toNat_eq (Option.some.inj hl)
    rw [ht] at hv
    have hO : d.tryFrom .bytes [U32.octet v 1, U32.octet v 2, U32.octet v 3] =
        .ok [U32.octet v 1, U32.octet v 2, U32.octet v 3] := by
      have h3 : d.bytesSize.getD 0 ≤ [U32.octet v 1, U32.octet v 2, U32.octet v 3].length := by
        have : ∀ d ∈ Msg.hybridAll, d.bytesSize.getD 0 ≤ 3 := by decide +kernel
        exact this d hd
      refine (accepted_across hd h3 (x := U32.octet v 1) (y := U32.octet v 2) (z := U32.octet v 3)
        rfl (U32.nibble v 1) rest).mpr ?_
      rw [← hv]
      exact hw
    have hr3 : d.fits .bytes 3 = true := hybrid_fits_bytes hd 3 (by
      have : ∀ d ∈ Msg.hybridAll, d.room8 ≤ 3 := by decide +kernel
      exact this d hd)
    intro i hi
    by_cases h3 : i < 3
    · have key : u[i]? = some (([U32.octet v 1, U32.octet v 2, U32.octet v 3] : Buf .bytes)[i]'h3 &&&
          usedBits .bytes d.props i) := by
        refine eq_masked (m := .bytes) (a := [U32.octet v 1, U32.octet v 2, U32.octet v 3])
          c4 (fun p hp => ?_) hi h3
        refine agree_all hd hr3 (by simp) hO c3 hp (fun hac => ?_)
          (fun hac hc => dual_zero8
            (List.all_eq_true.mp (List.all_eq_true.mp table_dual d hd) p hp) hac hc)
        rw [hread p.1 p.2 hp hac]
        obtain ⟨x, hx⟩ := Fld.read_ok (MsgDesc.fits_mem hr3 hp) (by simp)
          (((tryFrom_iff d .bytes _).mp hO).2 p hp)
        rw [hx]
        have := read_across (both_forms hd hp hac) (a := [U32.octet v 1, U32.octet v 2, U32.octet v 3])
          (x := U32.octet v 1) (y := U32.octet v 2) (z := U32.octet v 3)
          ⟨fun _ e => by cases e; rfl, fun _ e => by cases e; rfl, fun _ e => by cases e; rfl⟩
          d.packetType (U32.nibble v 1) rest hx
        rw [← hv] at this
        exact this
      rw [key, usedBits_bytes hd h3]
      congr 2
      have ho : octetVal (v :: rest) (i + 1) = (U32.octet v (i + 1)).toNat := by
        unfold octetVal
        rw [show (i + 1) / 4 = 0 by omega, show (i + 1) % 4 = i + 1 by omega,
          field_octet v rest (i + 1) (by omega)]
        rfl
      rw [ho, BitVec.ofNat_toNat, BitVec.setWidth_eq]
      match i, h3 with
      | 0, _ => rfl
      | 1, _ => rfl
      | 2, _ => rfl
    · have hm : Convert.byteMask d.name i = 0 := by
        unfold Convert.byteMask
        have := dataBytes_le d.name
        rw [if_neg (by omega), if_neg (by omega)]
      have hz : usedBits .bytes d.props i = 0 := by
        generalize d.props = ps
        induction ps with
        | nil => rfl
        | cons p ps ih =>
          show p.2.byteBits.at i ||| usedBits .bytes ps i = 0
          rw [ih]
          have : p.2.byteBits.at i = 0 := by
            match i, h3 with
            | i + 3, _ => rfl
          rw [this]
          rfl
      have := c4.2 i (by simpa using hi) (by omega)
      rw [hz, List.getElem_replicate] at this
      rw [hm, List.getElem?_eq_getElem (by omega)]
      congr 1
      have e := this.symm
      simp at e ⊢
      exact e

example : Msg.cv1ProgramChange.tryFrom .ump [0x2AC9E5FF, 7] = .ok [0x2AC9E5FF, 7] ∧
    Msg.cv1ProgramChange.tryConvertArray .ump .bytes 4 [0x2AC9E5FF, 7] = .ok [0xC9, 0x65, 0, 0] ∧
    octetVal [0x2AC9E5FF, 7] 2 = 0xE5 ∧ ¬ ShortPointer Msg.cv1ProgramChange (List.replicate 4 0) := by
  refine ⟨by decide +kernel, by decide +kernel, by decide, fun h => ?_⟩
  exact absurd h.1 (by decide)

end Midi2
