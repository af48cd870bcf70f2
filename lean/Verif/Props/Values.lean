import Verif.Props.Layout

/-!
# C35–C40, C44: enumerated and optional properties of fixed-size messages
-/

namespace Midi2

/-! ## C35: note attributes -/

/-- C35: on note on / note off, `set_attribute(a)` then `attribute()` returns `a`, for
every `a` including `None`; note number, velocity, channel, group are unaffected. -/
theorem C35_attribute_set_get {d : MsgDesc} (hd : d = Msg.cv2NoteOn ∨ d = Msg.cv2NoteOff)
    (b : Buf .ump) (hb : 2 ≤ b.length) (a : Option Attribute) :
    ∃ b', Fld.noteAttribute.write .ump b a = .ok b' ∧ Fld.noteAttribute.read .ump b' = .ok a ∧
      ∀ n f, (n, f) ∈ d.props → n ≠ "attribute" → f.read .ump b' = f.read .ump b := by
  have hall : d ∈ Msg.all := by rcases hd with rfl | rfl <;> simp [Msg.all, Msg.cv2All]
  have hf : ("attribute", Fld.noteAttribute) ∈ d.props := by
    rcases hd with rfl | rfl <;> simp [Msg.cv2NoteOn, Msg.cv2NoteOff]
  have hs : d.minSize .ump ≤ b.length := by rcases hd with rfl | rfl <;> exact hb
  obtain ⟨b', h1, h2⟩ := C01_ump_set_get_plain hall hf (by decide) (by decide) (by decide) b hs a
  exact ⟨b', h1, h2, fun n f hnf hne =>
    (C03_ump_no_interference hall hf hnf (Ne.symm hne) (by decide) b b' hs a h1).1⟩

/-- C35: an accepted note message has an attribute code of at most 3 and its attribute can
be read; other codes are rejected. -/
theorem C35_attribute_validated {d : MsgDesc} (hd : d = Msg.cv2NoteOn ∨ d = Msg.cv2NoteOff)
    (w0 w1 : BitVec 32) (rest : Buf .ump) :
    (d.tryFrom .ump (w0 :: w1 :: rest) = .ok (w0 :: w1 :: rest) →
      w0.toNat % 256 ≤ 3 ∧ ∃ v, Fld.noteAttribute.read .ump (w0 :: w1 :: rest) = .ok v) ∧
    (3 < w0.toNat % 256 → d.tryFrom .ump (w0 :: w1 :: rest) = .err .invalidData) := by
  have hall : d ∈ Msg.all := by rcases hd with rfl | rfl <;> simp [Msg.all, Msg.cv2All]
  have hf : ("attribute", Fld.noteAttribute) ∈ d.props := by
    rcases hd with rfl | rfl <;> simp [Msg.cv2NoteOn, Msg.cv2NoteOff]
  have h1 : d.tryFrom .ump (w0 :: w1 :: rest) = .ok (w0 :: w1 :: rest) →
      w0.toNat % 256 ≤ 3 ∧ ∃ v, Fld.noteAttribute.read .ump (w0 :: w1 :: rest) = .ok v := by
    intro h
    have hv := ((tryFrom_iff d .ump _).mp h).2 _ hf
    exact ⟨(C50_attribute w0 w1 rest none).2.mp hv, (C06_fixed_ump_reads hall _ h).1 _ _ hf⟩
  refine ⟨h1, fun hc => ?_⟩
  rcases C05_fixed_ump_total hall (w0 :: w1 :: rest) with h | h
  · exact absurd (h1 h).1 (by omega)
  · exact h

example : ∃ b', Fld.noteAttribute.write .ump [0x4A926003, 0xFFFFFFFF]
    (some (.profileSpecific 0xBEEF)) = .ok b' ∧
    Fld.noteAttribute.read .ump b' = .ok (some (.profileSpecific 0xBEEF)) := by
  obtain ⟨b', h1, h2, _⟩ := C35_attribute_set_get (.inl rfl) [0x4A926003, 0xFFFFFFFF] (by decide)
    (some (.profileSpecific 0xBEEF))
  exact ⟨b', h1, h2⟩

/-! ## C36: registered per-note controllers -/

/-- C36, first half: `set_controller(c)` then `controller()` returns `c` exactly when `c`
is one of: modulation, breath, pitch, volume, balance, pan, expression, sound controller
1..10, effect depth 1..4. -/
theorem C36_controller_set_get_partial (b : Buf .ump) (hb : 2 ≤ b.length) (c : Controller) :
    (∃ b', Fld.controller.write .ump b c = .ok b' ∧ Fld.controller.read .ump b' = .ok c) ↔
      ((∃ x, c = .modulation x) ∨ (∃ x, c = .breath x) ∨ (∃ x, c = .pitch7_25 x) ∨
       (∃ x, c = .volume x) ∨ (∃ x, c = .balance x) ∨ (∃ x, c = .pan x) ∨
       (∃ x, c = .expression x) ∨
       (∃ i x, c = .soundController i x ∧ 1 ≤ i.toNat ∧ i.toNat ≤ 10) ∨
       (∃ i x, c = .effectDepth i x ∧ 1 ≤ i.toNat ∧ i.toNat ≤ 4)) := by
  have := C01_ump_set_get (d := Msg.cv2RegisteredPerNoteController) (n := "controller")
    (f := .controller) (by simp [Msg.all, Msg.cv2All])
    (by simp [Msg.cv2RegisteredPerNoteController]) (by decide) b hb c
  rw [this]
  show Controller.faithful c = true ↔ _
  cases c <;> simp [Controller.faithful]

example : ¬ ∃ b', Fld.controller.write .ump [0x40000000, 0] (.soundController 11 5) = .ok b' ∧
    Fld.controller.read .ump b' = .ok (.soundController 11 5) := by
  intro h
  rcases (C36_controller_set_get_partial [0x40000000, 0] (by decide) _).mp h with
    ⟨_, h⟩ | ⟨_, h⟩ | ⟨_, h⟩ | ⟨_, h⟩ | ⟨_, h⟩ | ⟨_, h⟩ | ⟨_, h⟩ | ⟨_, _, h, h'⟩ | ⟨_, _, h, _⟩
  all_goals first | cases h; done | skip
  cases h
  exact absurd h'.2 (by decide)

/-- C36, second half: the controller of an accepted message can be read; writing it back
leaves the message unchanged, except for index 95, where it panics. -/
theorem C36_controller_read_write_partial (w0 w1 : BitVec 32) (rest : Buf .ump)
    (hok : Msg.cv2RegisteredPerNoteController.tryFrom .ump (w0 :: w1 :: rest) =
      .ok (w0 :: w1 :: rest)) :
    ∃ c, Fld.controller.read .ump (w0 :: w1 :: rest) = .ok c ∧
      Codes.controllerIndex c = w0.toNat % 256 ∧ Codes.controllerData c = w1.toNat ∧
      (w0.toNat % 256 ≠ 95 →
        Fld.controller.write .ump (w0 :: w1 :: rest) c = .ok (w0 :: w1 :: rest)) ∧
      (w0.toNat % 256 = 95 → Fld.controller.write .ump (w0 :: w1 :: rest) c = .panic) := by
  have hall : Msg.cv2RegisteredPerNoteController ∈ Msg.all := by simp [Msg.all, Msg.cv2All]
  have hf : ("controller", Fld.controller) ∈ Msg.cv2RegisteredPerNoteController.props := by
    simp [Msg.cv2RegisteredPerNoteController]
  obtain ⟨c, hc⟩ := (C06_fixed_ump_reads hall _ hok).1 _ _ hf
  have hc' : Controller.fromIndexAndData (U32.octet w0 3) w1 = .ok c := hc
  obtain ⟨e1, e2⟩ := controller_denotes hc'
  have e : (U32.octet w0 3).toNat = w0.toNat % 256 := by rw [U32.octet_eq]; simp
  refine ⟨c, hc, by rw [e1, e], e2, ?_, ?_⟩
  · intro h95
    rw [← e] at h95
    have key : Controller.toIndexAndData c = .ok (U32.octet w0 3, w1) := by
      revert hc' h95
      generalize U32.octet w0 3 = i
      intro hc' h95
      unfold Controller.fromIndexAndData at hc'
      split at hc' <;> first
        | (next hi =>
            cases hc'
            show Res.ok _ = _
            congr 2
            apply BitVec.eq_of_toNat_eq
            rw [hi]; rfl)
        | (next hi => exact absurd hi h95)
        | cases hc'
    show (Controller.toIndexAndData c >>= fun _ => _) = _
    rw [key]
    show Res.ok _ = _
    congr 1
    show U32.setOctet w0 3 (U32.octet w0 3) :: _ :: _ = _
    rw [U32.setOctet_eq, U32.octet_eq, ins_ext_self]
  · intro h95
    rw [← e] at h95
    have key : c = .effectDepth 5 w1 := by
      have : Controller.fromIndexAndData (U32.octet w0 3) w1 = .ok (.effectDepth 5 w1) := by
        rw [show U32.octet w0 3 = 95#8 from BitVec.eq_of_toNat_eq h95]; rfl
      rw [this] at hc'
      cases hc'; rfl
    subst key
    rfl

example : ∃ c, Fld.controller.read .ump [0x40003C07, 5, 9] = .ok c ∧
    Codes.controllerIndex c = 7 ∧ Codes.controllerData c = 5 :=
  have ⟨c, h1, h2, h3, _⟩ := C36_controller_read_write_partial 0x40003C07 5 [9] (by decide +kernel)
  ⟨c, h1, h2, h3⟩

/-- The low byte of a word, replaced. -/
theorem setOctet3_toNat (w : BitVec 32) (v : BitVec 8) :
    (U32.setOctet w 3 v).toNat = w.toNat / 256 * 256 + v.toNat := by
  have h1 : ((U32.setOctet w 3 v).extractLsb' 0 8).toNat = v.toNat := by
    rw [U32.setOctet_eq, ext_ins_same _ _ _ (by omega)]
  have h2 : ((U32.setOctet w 3 v).extractLsb' 8 24).toNat = (w.extractLsb' 8 24).toNat := by
    rw [U32.setOctet_eq, ext_ins_disjoint _ _ _ _ (by omega)]
  simp only [BitVec.extractLsb'_toNat, Nat.shiftRight_eq_div_pow] at h1 h2
  have := (U32.setOctet w 3 v).isLt
  have := w.isLt
  omega

/-- C36: what `set_controller(c)` does, for every value.  It panics for the numbered variants whose
number is out of range.  For all others the index of the controller goes to the low byte of the
first word and its data to the second word, and nothing else changes; only a chorus send level,
index 93 in the controller table, is written with index 91. -/
theorem C36_controller_write_exactly (w0 w1 : BitVec 32) (rest : Buf .ump) (c : Controller) :
    (((∃ i x, c = .soundController i x ∧ ¬ (1 ≤ i.toNat ∧ i.toNat ≤ 10)) ∨
      (∃ i x, c = .effectDepth i x ∧ ¬ (1 ≤ i.toNat ∧ i.toNat ≤ 4))) →
      Fld.controller.write .ump (w0 :: w1 :: rest) c = .panic) ∧
    (¬ ((∃ i x, c = .soundController i x ∧ ¬ (1 ≤ i.toNat ∧ i.toNat ≤ 10)) ∨
      (∃ i x, c = .effectDepth i x ∧ ¬ (1 ≤ i.toNat ∧ i.toNat ≤ 4))) →
      ∃ v0 v1, Fld.controller.write .ump (w0 :: w1 :: rest) c = .ok (v0 :: v1 :: rest) ∧
        v0.toNat = w0.toNat / 256 * 256 +
          (if ∃ x, c = .chorusSendLevel x then 91 else Codes.controllerIndex c) ∧
        v1.toNat = Codes.controllerData c) := by
  have go : ∀ (i : BitVec 8) (d : BitVec 32), c.toIndexAndData = .ok (i, d) →
      ∃ v0 v1, Fld.controller.write .ump (w0 :: w1 :: rest) c = .ok (v0 :: v1 :: rest) ∧
        v0.toNat = w0.toNat / 256 * 256 + i.toNat ∧ v1.toNat = d.toNat := by
    intro i d h
    refine ⟨U32.setOctet w0 3 i, d, ?_, ?_, rfl⟩
    · show (Controller.toIndexAndData c >>= fun _ => _) = _
      rw [h]
      rfl
    · exact setOctet3_toNat w0 i
  have plain : ∀ (i : BitVec 8) (d : BitVec 32), c.toIndexAndData = .ok (i, d) →
      (∀ x, c ≠ .chorusSendLevel x) → i.toNat = Codes.controllerIndex c →
      d.toNat = Codes.controllerData c →
      ∃ v0 v1, Fld.controller.write .ump (w0 :: w1 :: rest) c = .ok (v0 :: v1 :: rest) ∧
        v0.toNat = w0.toNat / 256 * 256 +
          (if ∃ x, c = .chorusSendLevel x then 91 else Codes.controllerIndex c) ∧
        v1.toNat = Codes.controllerData c := by
    intro i d h hn h1 h2
    obtain ⟨v0, v1, e1, e2, e3⟩ := go i d h
    refine ⟨v0, v1, e1, ?_, by rw [e3, h2]⟩
    rw [if_neg (fun ⟨x, hx⟩ => hn x hx), e2, h1]
  cases c
  case soundController i x =>
    refine ⟨fun h => ?_, fun h => ?_⟩
    · have hi : ¬ (1 ≤ i.toNat ∧ i.toNat ≤ 10) := by
        rcases h with ⟨j, y, e, h⟩ | ⟨j, y, e, h⟩
        · cases e; exact h
        · cases e
      have hp : Controller.toIndexAndData (.soundController i x) = .panic := by
        simp only [Controller.toIndexAndData]
        split
        all_goals first | rfl | (next e => exact absurd (by omega) hi)
      show (Controller.toIndexAndData _ >>= fun _ => _) = _
      rw [hp]
      rfl
    · have hi : 1 ≤ i.toNat ∧ i.toNat ≤ 10 :=
        Classical.byContradiction fun hn => h (.inl ⟨i, x, rfl, hn⟩)
      have hp : Controller.toIndexAndData (.soundController i x) =
          .ok (BitVec.ofNat 8 (69 + i.toNat), x) := by
        simp only [Controller.toIndexAndData]
        split <;> first
          | (next e => rw [e]; rfl)
          | (next h1 h2 h3 h4 h5 h6 h7 h8 h9 h10 =>
              have e : ∀ {k}, (i.toNat = k → False) → i.toNat ≠ k := id
              have := e h1; have := e h2; have := e h3; have := e h4; have := e h5
              have := e h6; have := e h7; have := e h8; have := e h9; have := e h10
              exfalso; omega)
      refine plain _ _ hp (fun _ => by simp) ?_ rfl
      show (BitVec.ofNat 8 (69 + i.toNat)).toNat = 69 + i.toNat
      rw [BitVec.toNat_ofNat]
      omega
  case effectDepth i x =>
    refine ⟨fun h => ?_, fun h => ?_⟩
    · have hi : ¬ (1 ≤ i.toNat ∧ i.toNat ≤ 4) := by
        rcases h with ⟨j, y, e, h⟩ | ⟨j, y, e, h⟩
        · cases e
        · cases e; exact h
      have hp : Controller.toIndexAndData (.effectDepth i x) = .panic := by
        simp only [Controller.toIndexAndData]
        split
        all_goals first | rfl | (next e => exact absurd (by omega) hi)
      show (Controller.toIndexAndData _ >>= fun _ => _) = _
      rw [hp]
      rfl
    · have hi : 1 ≤ i.toNat ∧ i.toNat ≤ 4 :=
        Classical.byContradiction fun hn => h (.inr ⟨i, x, rfl, hn⟩)
      have hp : Controller.toIndexAndData (.effectDepth i x) =
          .ok (BitVec.ofNat 8 (90 + i.toNat), x) := by
        simp only [Controller.toIndexAndData]
        split <;> first
          | (next e => rw [e]; rfl)
          | (next h1 h2 h3 h4 =>
              have e : ∀ {k}, (i.toNat = k → False) → i.toNat ≠ k := id
              have := e h1; have := e h2; have := e h3; have := e h4
              exfalso; omega)
      refine plain _ _ hp (fun _ => by simp) ?_ rfl
      show (BitVec.ofNat 8 (90 + i.toNat)).toNat = 90 + i.toNat
      rw [BitVec.toNat_ofNat]
      omega
  case chorusSendLevel x =>
    refine ⟨fun h => (by rcases h with ⟨_, _, e, _⟩ | ⟨_, _, e, _⟩ <;> cases e), fun _ => ?_⟩
    obtain ⟨v0, v1, e1, e2, e3⟩ := go 91 x rfl
    exact ⟨v0, v1, e1, by rw [if_pos ⟨x, rfl⟩, e2]; rfl, e3⟩
  all_goals
    refine ⟨fun h => (by rcases h with ⟨_, _, e, _⟩ | ⟨_, _, e, _⟩ <;> cases e), fun _ => ?_⟩
    exact plain _ _ rfl (fun _ => by simp) rfl rfl

example : Fld.controller.write .ump [0x40003C07, 5, 9] (.decayTime 6) = .ok [0x40003C4B, 6, 9] ∧
    Fld.controller.write .ump [0x40003C07, 5, 9] (.chorusSendLevel 6) = .ok [0x40003C5B, 6, 9] ∧
    Fld.controller.write .ump [0x40003C07, 5, 9] (.soundController 10 6) = .ok [0x40003C4F, 6, 9] ∧
    Fld.controller.write .ump [0x40003C07, 5, 9] (.soundController 11 6) = .panic := by decide +kernel

/-- C36 is violated by the code: `EffectDepth{5}` – what the getter returns for index 95 –
cannot be written; a chorus send level (index 93 in the controller table) is written with
the index of the reverb send level; the named controllers read back as a different variant. -/
theorem C36_violation (b : Buf .ump) (hb : 2 ≤ b.length) (x : BitVec 32) :
    Fld.controller.write .ump b (.effectDepth 5 x) = .panic ∧
    Fld.controller.write .ump b (.chorusSendLevel x) =
      Fld.controller.write .ump b (.reverbSendLevel x) ∧
    (∃ b', Fld.controller.write .ump b (.timbre x) = .ok b' ∧
      Fld.controller.read .ump b' = .ok (.soundController 2 x)) := by
  refine ⟨rfl, rfl, ?_⟩
  match b, hb with
  | w0 :: w1 :: rest, _ =>
    refine ⟨_, rfl, ?_⟩
    show Controller.fromIndexAndData (U32.octet (U32.setOctet w0 3 71) 3) x = _
    rw [U32.octet_eq, U32.setOctet_eq, ext_ins_same _ _ _ (by omega)]
    rfl

/-! ## C37: program change bank -/

/-- C37: `set_bank(v)` then `bank()` returns `v`, for `Some` and `None`; program, channel
and group are unaffected and the constant header fields stay valid. -/
theorem C37_bank_set_get (b : Buf .ump) (hb : 2 ≤ b.length) (v : Option (BitVec 14)) :
    ∃ b', Fld.programBank.write .ump b v = .ok b' ∧ Fld.programBank.read .ump b' = .ok v ∧
      ∀ n f, (n, f) ∈ Msg.cv2ProgramChange.props → n ≠ "bank" →
        f.read .ump b' = f.read .ump b ∧ f.validate .ump b' = f.validate .ump b := by
  have hall : Msg.cv2ProgramChange ∈ Msg.all := by simp [Msg.all, Msg.cv2All]
  have hf : ("bank", Fld.programBank) ∈ Msg.cv2ProgramChange.props := by
    simp [Msg.cv2ProgramChange]
  obtain ⟨b', h1, h2⟩ := C01_ump_set_get_plain hall hf (by decide) (by decide) (by decide) b hb v
  exact ⟨b', h1, h2, fun n f hnf hne =>
    C03_ump_no_interference hall hf hnf (Ne.symm hne) (by decide) b b' hb v h1⟩

example : ∃ b', Fld.programBank.write .ump [0x4FCE0000, 0x75000000] (some 0x1F5E) = .ok b' ∧
    Fld.programBank.read .ump b' = .ok (some 0x1F5E) := by
  obtain ⟨b', h1, h2, _⟩ := C37_bank_set_get [0x4FCE0000, 0x75000000] (by decide) (some 0x1F5E)
  exact ⟨b', h1, h2⟩

/-! ## C38: key signature -/

/-- C38: `set_sharps_flats(v)` then `sharps_flats()` returns `v` exactly when `v` is not
`Flats(0)`. -/
theorem C38_sharps_flats_set_get_partial (b : Buf .ump) (hb : 4 ≤ b.length)
    (v : KeySharpsFlats) :
    (∃ b', Fld.keySharpsFlats.write .ump b v = .ok b' ∧ Fld.keySharpsFlats.read .ump b' = .ok v) ↔
      v ≠ .flats 0 := by
  have := C01_ump_set_get (d := Msg.flexSetKeySignature) (n := "sharps_flats")
    (f := .keySharpsFlats) (by simp [Msg.all, Msg.flexAll])
    (by simp [Msg.flexSetKeySignature]) (by decide) b hb v
  rw [this]
  show KeySharpsFlats.faithful v = true ↔ _
  cases v <;> simp [KeySharpsFlats.faithful]

/-- C38 is violated by the code: `Flats(0)` panics, on every buffer. -/
theorem C38_violation (b : Buf .ump) : Fld.keySharpsFlats.write .ump b (.flats 0) = .panic := rfl

/-- C38: for the other values the nibble on the wire is the signed number of sharps. -/
theorem C38_wire_value (b b' : Buf .ump) (hb : 4 ≤ b.length) (v : KeySharpsFlats)
    (hv : v ≠ .flats 0) (hw : Fld.keySharpsFlats.write .ump b v = .ok b') :
    ∃ k, fieldAt b' 1 0 4 = some k ∧
      Codes.keySharpsFlats v = if k < 8 then (k : Int) else (k : Int) - 16 := by
  obtain ⟨b1, h1, h2⟩ := (C38_sharps_flats_set_get_partial b hb v).mpr hv
  rw [h1] at hw
  cases hw
  have hl := (C04_ump_footprint (d := Msg.flexSetKeySignature) (n := "sharps_flats")
    (f := .keySharpsFlats) (by simp [Msg.all, Msg.flexAll]) (by simp [Msg.flexSetKeySignature]) (by decide) b b' hb v
    h1).1
  have hn : Fld.keySharpsFlats.umpBits.need ≤ b'.length := by
    rw [hl]; exact Nat.le_trans (by decide) hb
  obtain ⟨k, e, hk⟩ := Fld.read32_value .keySharpsFlats rfl hn h2
  refine ⟨k, ?_, hk⟩
  simp only [Fld.pieces, valueOf, Option.bind_eq_bind] at e
  cases h : fieldAt b' 1 0 4 with
  | none => rw [h] at e; cases e
  | some x => rw [h] at e; simp at e; rw [e]

example : ∃ b', Fld.keySharpsFlats.write .ump [0xD0100005, 0, 0, 0] (.flats 3) = .ok b' ∧
    Fld.keySharpsFlats.read .ump b' = .ok (.flats 3) :=
  (C38_sharps_flats_set_get_partial _ (by decide) _).mpr (by decide)

/-! ## C39: chord names -/

/-- C39: every property of a chord name – tonic, sharps/flats, chord type, four
alterations, and the bass equivalents – round-trips. -/
theorem C39_chord_name_set_get {n : String} {f : Fld} (hf : (n, f) ∈ Msg.flexSetChordName.props)
    (ha : f.accessible .ump = true) (b : Buf .ump) (hb : 4 ≤ b.length) (v : f.Ty) :
    ∃ b', f.write .ump b v = .ok b' ∧ f.read .ump b' = .ok v ∧
      ∀ n' g, (n', g) ∈ Msg.flexSetChordName.props → n' ≠ n →
        g.read .ump b' = g.read .ump b := by
  have hall : Msg.flexSetChordName ∈ Msg.all := by simp [Msg.all, Msg.flexAll]
  have hk : ∀ p ∈ Msg.flexSetChordName.props, p.2 ≠ .controller ∧ p.2 ≠ .keySharpsFlats := by
    decide +kernel
  obtain ⟨b', h1, h2⟩ := C01_ump_set_get_plain hall hf ha (hk _ hf).1 (hk _ hf).2 b hb v
  exact ⟨b', h1, h2, fun n' g hg hne =>
    (C03_ump_no_interference hall hf hg (Ne.symm hne) ha b b' hb v h1).1⟩

/-- C39: every property of an accepted chord name can be read, and the value read is the
one whose code (tables in `Verif/Spec/Codes.lean`) is on the wire. -/
theorem C39_chord_name_accepted (b : Buf .ump)
    (hok : Msg.flexSetChordName.tryFrom .ump b = .ok b) {n : String} {f : Fld}
    (hf : (n, f) ∈ Msg.flexSetChordName.props) (ha : f.accessible .ump = true) :
    ∃ v, f.read .ump b = .ok v ∧ ∃ l ∈ Layout.ump, l.name = "flex_data::SetChordName" ∧
      ∃ ps k, (n, ps) ∈ l.props ∧ valueOf b ps 0 = some k ∧ f.Denotes k v := by
  have hall : Msg.flexSetChordName ∈ Msg.all := by simp [Msg.all, Msg.flexAll]
  obtain ⟨v, hv⟩ := (C06_fixed_ump_reads hall b hok).1 n f hf
  obtain ⟨l, h1, h2, h3, h4⟩ := C51_ump_layout hall
  obtain ⟨⟨n', ps⟩, hps, rfl⟩ := List.mem_map.mp ((h3 n).mpr ⟨f, hf, ha⟩)
  obtain ⟨k, hk1, hk2⟩ := h4 _ _ hps f hf b v ((tryFrom_iff _ _ _).mp hok).1 hv
  exact ⟨v, hv, l, h1, h2, ps, k, hps, hk1, hk2⟩

example : ∃ b', Fld.write .ump (.alteration ⟨0, 0, 0x00FF0000, 0⟩)
    [0xD0100006, 0x13011A2B, 0x3C4D0000, 0xE5190000] (some (.lower 9)) = .ok b' ∧
    Fld.read .ump (.alteration ⟨0, 0, 0x00FF0000, 0⟩) b' = .ok (some (.lower 9)) := by
  obtain ⟨b', h1, h2, _⟩ := C39_chord_name_set_get (n := "chord_alteration4")
    (f := .alteration ⟨0, 0, 0x00FF0000, 0⟩)
    (by simp [Msg.flexSetChordName]) (by decide)
    [0xD0100006, 0x13011A2B, 0x3C4D0000, 0xE5190000] (by decide) (some (.lower 9))
  exact ⟨b', h1, h2⟩

/-! ## C40: optional channel (fixed-size flex messages) -/

/-- C40 for the fixed-size messages with an optional channel: `set_optional_channel(c)` then
`optional_channel()` returns `c`; other properties are unaffected. -/
theorem C40_fixed_set_get {d : MsgDesc}
    (hd : d = Msg.flexSetChordName ∨ d = Msg.flexSetKeySignature)
    (b : Buf .ump) (hb : 4 ≤ b.length) (c : Option (BitVec 4)) :
    ∃ b', Fld.flexOptionalChannel.write .ump b c = .ok b' ∧
      Fld.flexOptionalChannel.read .ump b' = .ok c ∧
      ∀ n f, (n, f) ∈ d.props → n ≠ "optional_channel" → f.read .ump b' = f.read .ump b := by
  have hall : d ∈ Msg.all := by rcases hd with rfl | rfl <;> simp [Msg.all, Msg.flexAll]
  have hf : ("optional_channel", Fld.flexOptionalChannel) ∈ d.props := by
    rcases hd with rfl | rfl <;> simp [Msg.flexSetChordName, Msg.flexSetKeySignature]
  have hs : d.minSize .ump ≤ b.length := by rcases hd with rfl | rfl <;> exact hb
  obtain ⟨b', h1, h2⟩ := C01_ump_set_get_plain hall hf (by decide) (by decide) (by decide) b hs c
  exact ⟨b', h1, h2, fun n f hnf hne =>
    (C03_ump_no_interference hall hf hnf (Ne.symm hne) (by decide) b b' hs c h1).1⟩

example : ∃ b', Fld.flexOptionalChannel.write .ump [0xD0100005, 0, 0, 0] (some 9) = .ok b' ∧
    Fld.flexOptionalChannel.read .ump b' = .ok (some 9) := by
  obtain ⟨b', h1, h2, _⟩ := C40_fixed_set_get (.inr rfl) [0xD0100005, 0, 0, 0] (by decide) (some 9)
  exact ⟨b', h1, h2⟩

/-! ## C44: delta clockstamps -/

/-- C44: the 20-bit time of `DeltaClockstamp` round-trips; the upper 12 bits of the word and
all further words are unchanged. -/
theorem C44_delta_clockstamp (w : BitVec 32) (rest : Buf .ump) (v : BitVec 20) :
    ("time_data", Fld.u20Data) ∈ Msg.utilDeltaClockstamp.props ∧
    ∃ w', Fld.u20Data.write .ump (w :: rest) v = .ok (w' :: rest) ∧
      Fld.u20Data.read .ump (w' :: rest) = .ok v ∧
      w'.toNat % 2 ^ 20 = v.toNat ∧ w'.toNat / 2 ^ 20 = w.toNat / 2 ^ 20 := by
  refine ⟨by simp [Msg.utilDeltaClockstamp], (w &&& ~~~0x000FFFFF#32) ||| v.setWidth 32, rfl, ?_⟩
  have hr := C01_ump_set_get_plain (d := Msg.utilDeltaClockstamp) (n := "time_data")
    (f := .u20Data) (by simp [Msg.all, Msg.utilAll]) (by simp [Msg.utilDeltaClockstamp])
    (by decide) (by decide) (by decide) (w :: rest) (by show 1 ≤ _; simp) v
  obtain ⟨b', h1, h2⟩ := hr
  cases h1
  refine ⟨h2, ?_⟩
  have hi : (w &&& ~~~0x000FFFFF#32) ||| v.setWidth 32 = ins w 0 v := by
    unfold ins
    simp
  have h3 : ((w &&& ~~~0x000FFFFF#32) ||| v.setWidth 32).extractLsb' 0 20 = v := by
    rw [hi]; exact ext_ins_same _ _ _ (by omega)
  have h4 : ((w &&& ~~~0x000FFFFF#32) ||| v.setWidth 32).extractLsb' 20 12 =
      w.extractLsb' 20 12 := by
    rw [hi]; exact ext_ins_disjoint _ _ _ _ (by omega)
  have h3 := congrArg BitVec.toNat h3
  have h4 := congrArg BitVec.toNat h4
  rw [toNat_ext] at h3 h4
  rw [toNat_ext] at h4
  have := w.isLt
  have := ((w &&& ~~~0x000FFFFF#32) ||| v.setWidth 32).isLt
  refine ⟨by rw [Nat.pow_zero, Nat.div_one] at h3; exact h3, ?_⟩
  rw [Nat.mod_eq_of_lt (by omega), Nat.mod_eq_of_lt (by omega)] at h4
  exact h4

example : Fld.u20Data.write .ump [0x00400012] (0xABCDE : BitVec 20) = .ok [0x004ABCDE] := by
  decide +kernel

/-- C44: the 16-bit data of `DeltaClockstampTpq` and of the other utility messages
round-trips; the upper half of the word is unchanged. -/
theorem C44_ticks {d : MsgDesc} (hd : d ∈ [Msg.utilDeltaClockstampTpq, Msg.utilNoOp,
    Msg.utilClock, Msg.utilTimestamp]) (w : BitVec 32) (rest : Buf .ump) (v : BitVec 16) :
    ("time_data", Fld.utilData) ∈ d.props ∧
    ∃ w', Fld.utilData.write .ump (w :: rest) v = .ok (w' :: rest) ∧
      Fld.utilData.read .ump (w' :: rest) = .ok v ∧
      w'.toNat % 2 ^ 16 = v.toNat ∧ w'.toNat / 2 ^ 16 = w.toNat / 2 ^ 16 := by
  refine ⟨?_, U32.setWord w 1 v, rfl, ?_⟩
  · simp only [List.mem_cons, List.not_mem_nil, or_false] at hd
    rcases hd with rfl | rfl | rfl | rfl <;>
      simp [Msg.utilDeltaClockstampTpq, Msg.utilNoOp, Msg.utilClock, Msg.utilTimestamp]
  have h3 : (U32.setWord w 1 v).extractLsb' 0 16 = v := by
    rw [U32.setWord_eq]; exact ext_ins_same _ _ _ (by omega)
  have h4 : (U32.setWord w 1 v).extractLsb' 16 16 = w.extractLsb' 16 16 := by
    rw [U32.setWord_eq]; exact ext_ins_disjoint _ _ _ _ (by omega)
  refine ⟨?_, ?_⟩
  · show Res.ok (U32.word (U32.setWord w 1 v) 1) = _
    rw [U32.word_eq]
    exact congrArg _ h3
  have h3 := congrArg BitVec.toNat h3
  have h4 := congrArg BitVec.toNat h4
  rw [toNat_ext] at h3 h4
  rw [toNat_ext] at h4
  have := w.isLt
  have := (U32.setWord w 1 v).isLt
  refine ⟨by simpa using h3, ?_⟩
  rw [Nat.mod_eq_of_lt (by omega), Nat.mod_eq_of_lt (by omega)] at h4
  exact h4

example : ∃ w', Fld.utilData.write .ump [0x00300001, 7] (480 : BitVec 16) = .ok [w', 7] ∧
    Fld.utilData.read .ump [w', 7] = .ok (480 : BitVec 16) :=
  have ⟨_, w', h1, h2, _⟩ := C44_ticks (d := Msg.utilDeltaClockstampTpq) (by decide +kernel) 0x00300001
    [7] 480
  ⟨w', h1, h2⟩

end Midi2
