import Verif.Lemmas.Fields

/-! Write laws of the properties: a setter changes only the bits of its property, the
getter then returns the value and validation succeeds. -/

namespace Midi2

/-- Number of words reached by the masks. -/
def UmpSchema.need (s : UmpSchema) : Nat :=
  if s.d4 ≠ 0 then 4 else if s.d3 ≠ 0 then 3 else if s.d2 ≠ 0 then 2 else 1

/-- Number of bytes reached by the masks. -/
def BytesSchema.need (s : BytesSchema) : Nat :=
  if s.b3 ≠ 0 then 3 else if s.b2 ≠ 0 then 2 else if s.b1 ≠ 0 then 1 else 0

/-- The trait implementations the property relies on exist (in Rust: it compiles). -/
def Fld.implemented : Fld → Bool
  | .hybrid r _ u => ((umpImpl r).lookup u).isSome
  | .schema r u => ((umpImpl r).lookup u).isSome
  | .tonic s => (tonicImpl.lookup s).isSome
  | .chordSharpsFlats s => (chordSharpsFlatsImpl.lookup s).isSome
  | .chordType s => (chordTypeImpl.lookup s).isSome
  | .alteration s => (alterationImpl.lookup s).isSome
  | _ => true

theorem implOf_ok {β : Type} {t : List (UmpSchema × β)} {s : UmpSchema}
    (h : (t.lookup s).isSome = true) : ∃ x, implOf t s = .ok x := by
  unfold implOf
  cases e : t.lookup s with
  | none => simp [e] at h
  | some x => exact ⟨x, rfl⟩

theorem lt_need {s : UmpSchema} {i : Nat} (h : s.at i ≠ 0) : i < s.need := by
  unfold UmpSchema.at at h
  unfold UmpSchema.need
  split at h
  · repeat' split
    all_goals omega
  · repeat' split
    all_goals first | omega | contradiction
  · repeat' split
    all_goals first | omega | contradiction
  · rw [if_pos h]; omega
  · exact absurd rfl h

/-- One in-place bit-field update of unit `i`. -/
theorem cell_update {n k s : Nat} {m : Nat → BitVec n} {b : List (BitVec n)} {i : Nat}
    (c : BitVec k) (hi : i < b.length) (hc : covers k s (m i) = true) :
    modifyAt b i (fun w => ins w s c) = .ok (b.set i (ins b[i] s c)) ∧
    SameOff m b (b.set i (ins b[i] s c)) ∧
    at' (b.set i (ins b[i] s c)) i = .ok (ins b[i] s c) := by
  refine ⟨modifyAt_ok _ hi, SameOff.set _ _ _ fun _ => ins_off _ _ hc, ?_⟩
  rw [at'_ok (by simpa using hi)]
  simp

theorem repBound_lt {r : Rep} {i : Nat} {s : UmpSchema} {j : Nat}
    (h : repCovers r j (s.at i) = true) (hb : repBound r j = true) : i < s.need :=
  lt_need (rep_ne h hb)

theorem repWriteAt_law {r : Rep} {i j : Nat} {m : Nat → BitVec 32} {b : List (BitVec 32)}
    (hi : i < b.length) (hc : repCovers r j (m i) = true) (hb : repBound r j = true) (v : r.Ty) :
    ∃ b', repWriteAt r i j b v = .ok b' ∧ SameOff m b b' ∧ repReadAt r i j b' = .ok v := by
  cases r <;> simp only [repCovers, repBound, Bool.and_eq_true, decide_eq_true_eq] at hc hb
  case bool =>
    obtain ⟨h1, h2, h3⟩ := cell_update (BitVec.ofBool v) hi hc
    refine ⟨_, h1, h2, ?_⟩
    simp only [repReadAt, h3, Res.ok_bind, U32.bit_eq, Res.pure_eq]
    rw [bit_ins_same _ _ _ (by omega)]
  case u4 =>
    obtain ⟨h1, h2, h3⟩ := cell_update v hi hc
    refine ⟨_, h1, h2, ?_⟩
    simp only [repReadAt, h3, Res.ok_bind, U32.nibble_eq, Res.pure_eq]
    rw [ext_ins_same _ _ _ (by omega)]
  case u7 =>
    obtain ⟨h1, h2, h3⟩ := cell_update v hi hc
    refine ⟨_, h1, h2, ?_⟩
    simp only [repReadAt, h3, Res.ok_bind, U32.septet_eq, Res.pure_eq]
    rw [ext_ins_same _ _ _ (by omega)]
  case u8 =>
    obtain ⟨h1, h2, h3⟩ := cell_update v hi hc
    refine ⟨_, h1, h2, ?_⟩
    simp only [repReadAt, h3, Res.ok_bind, U32.octet_eq, Res.pure_eq]
    rw [ext_ins_same _ _ _ (by omega)]
  case u14 =>
    refine ⟨_, modifyAt_ok _ hi, SameOff.set _ _ _ fun _ => ?_, ?_⟩
    · simp only [U32.setSeptet_eq]
      rw [← ins_off _ _ hc.2, ← ins_off _ _ hc.1]
    · simp only [repReadAt, at'_ok (show i < (b.set i _).length by simpa using hi), Res.ok_bind,
        U32.septet_eq, Res.pure_eq, List.getElem_set_self, U32.setSeptet_eq]
      rw [ext_ins_same _ _ _ (by omega), ext_ins_disjoint _ _ _ _ (by omega),
        ext_ins_same _ _ _ (by omega), u14_roundtrip7]
  case u16 =>
    obtain ⟨h1, h2, h3⟩ := cell_update v hi hc
    refine ⟨_, h1, h2, ?_⟩
    simp only [repReadAt, h3, Res.ok_bind, U32.word_eq, Res.pure_eq]
    rw [ext_ins_same _ _ _ (by omega)]
  case u32 =>
    refine ⟨_, modifyAt_ok _ hi, SameOff.set _ _ _ fun _ => ?_, ?_⟩
    · have e : m i = BitVec.allOnes 32 := by
        apply BitVec.eq_of_getLsbD_eq
        intro k hk
        rw [covers_bit hc hk (by omega) (by omega)]
        rw [BitVec.getLsbD_allOnes]; simp [hk]
      rw [e]; simp
    · simp [repReadAt, at'_ok (show i < (b.set i _).length by simpa using hi)]
  case u7x3 =>
    obtain ⟨x, y, z⟩ := v
    refine ⟨_, modifyAt_ok _ hi, SameOff.set _ _ _ fun _ => ?_, ?_⟩
    · simp only [U32.setSeptet_eq]
      rw [← ins_off _ _ hc.2, ← ins_off _ _ hc.1.2, ← ins_off _ _ hc.1.1]
    · simp only [repReadAt, at'_ok (show i < (b.set i _).length by simpa using hi), Res.ok_bind,
        U32.septet_eq, Res.pure_eq, List.getElem_set_self, U32.setSeptet_eq]
      rw [ext_ins_same _ _ _ (by omega),
        ext_ins_disjoint _ _ _ _ (by omega), ext_ins_disjoint _ _ _ _ (by omega),
        ext_ins_same _ _ _ (by omega),
        ext_ins_disjoint _ _ _ _ (by omega), ext_ins_same _ _ _ (by omega)]
  case u7x4 =>
    obtain ⟨x, y, z, t⟩ := v
    refine ⟨_, modifyAt_ok _ hi, SameOff.set _ _ _ fun _ => ?_, ?_⟩
    · simp only [U32.setSeptet_eq]
      rw [← ins_off _ _ hc.2, ← ins_off _ _ hc.1.2, ← ins_off _ _ hc.1.1.2,
        ← ins_off _ _ hc.1.1.1]
    · simp only [repReadAt, at'_ok (show i < (b.set i _).length by simpa using hi), Res.ok_bind,
        U32.septet_eq, Res.pure_eq, List.getElem_set_self, U32.setSeptet_eq]
      rw [ext_ins_same _ _ _ (by omega),
        ext_ins_disjoint _ _ _ _ (by omega), ext_ins_disjoint _ _ _ _ (by omega),
        ext_ins_disjoint _ _ _ _ (by omega), ext_ins_same _ _ _ (by omega),
        ext_ins_disjoint _ _ _ _ (by omega), ext_ins_disjoint _ _ _ _ (by omega),
        ext_ins_same _ _ _ (by omega),
        ext_ins_disjoint _ _ _ _ (by omega), ext_ins_same _ _ _ (by omega)]

theorem umpWrite_law {r : Rep} {s : UmpSchema} (h : ((umpImpl r).lookup s).isSome = true)
    {b : List (BitVec 32)} (hl : s.need ≤ b.length) (v : r.Ty) :
    ∃ b', umpWrite r s b v = .ok b' ∧ SameOff s.at b b' ∧ umpRead r s b' = .ok v := by
  unfold umpWrite umpRead
  cases e : (umpImpl r).lookup s with
  | none => simp [e] at h
  | some x =>
    obtain ⟨i, j⟩ := x
    obtain ⟨hc, hb, _⟩ := umpImpl_covers e
    exact repWriteAt_law (Nat.lt_of_lt_of_le (repBound_lt hc hb) hl) hc hb v

theorem tonic_codec (v : Tonic) : Tonic.fromNibble (Tonic.intoNibble v) = some v := by
  cases v <;> decide
theorem chordSF_codec (v : ChordSharpsFlats) :
    ChordSharpsFlats.fromNibble (ChordSharpsFlats.intoNibble v) = some v := by
  cases v <;> decide
theorem chordType_codec (v : ChordType) : ChordType.fromOctet (ChordType.intoOctet v) = some v := by
  cases v <;> decide
theorem nibble_codec (h : BitVec 8) (d : BitVec 4) (hh : U8.nibble h 1 = 0) :
    U8.nibble (h ||| d.setWidth 8) 0 = U8.nibble h 0 ∧ U8.nibble (h ||| d.setWidth 8) 1 = d := by
  constructor
  · apply BitVec.eq_of_getLsbD_eq
    intro k hk
    simp only [U8.nibble_eq, getLsbD_ext, BitVec.getLsbD_or, BitVec.getLsbD_setWidth]
    rw [BitVec.getLsbD_of_ge d _ (by omega)]; simp
  · apply BitVec.eq_of_getLsbD_eq
    intro k hk
    have := congrArg (fun x : BitVec 4 => x.getLsbD k) hh
    simp only [U8.nibble_eq, getLsbD_ext, hk, decide_true, Bool.true_and] at this
    simp only [U8.nibble_eq, getLsbD_ext, BitVec.getLsbD_or, BitVec.getLsbD_setWidth, hk,
      decide_true, Bool.true_and, this]
    simp
    intro _; omega
theorem alteration_codec (v : Option Alteration) :
    Alteration.fromOctet (Alteration.intoOctet v) = some v := by
  match v with
  | none => decide
  | some (.add d) =>
    obtain ⟨h0, h1⟩ := nibble_codec 0x10#8 d (by decide)
    unfold Alteration.fromOctet Alteration.intoOctet
    simp only [h0, h1]
    simp [U8.nibble]
  | some (.subtract d) =>
    obtain ⟨h0, h1⟩ := nibble_codec 0x20#8 d (by decide)
    unfold Alteration.fromOctet Alteration.intoOctet
    simp only [h0, h1]
    simp [U8.nibble]
  | some (.raise d) =>
    obtain ⟨h0, h1⟩ := nibble_codec 0x30#8 d (by decide)
    unfold Alteration.fromOctet Alteration.intoOctet
    simp only [h0, h1]
    simp [U8.nibble]
  | some (.lower d) =>
    obtain ⟨h0, h1⟩ := nibble_codec 0x40#8 d (by decide)
    unfold Alteration.fromOctet Alteration.intoOctet
    simp only [h0, h1]
    simp [U8.nibble]
theorem uiHint_codec (v : UiHint) : UiHint.fromCrumb (UiHint.intoCrumb v) = v := by
  cases v <;> decide
theorem midi1Port_codec (v : Option Midi1Port) :
    Midi1Port.fromCrumb (Midi1Port.intoCrumb v) = some v := by
  rcases v with _ | _ | _ <;> decide
theorem direction_codec (v : Direction) : Direction.fromCrumb (Direction.intoCrumb v) = some v := by
  cases v <;> decide
theorem keySF_codec (v : KeySharpsFlats) (h : v.faithful = true) :
    ∃ c, KeySharpsFlats.intoNibble v = .ok c ∧ KeySharpsFlats.fromNibble c = v := by
  cases v with
  | nonStandard => exact ⟨_, rfl, by decide⟩
  | sharps n =>
    refine ⟨_, rfl, ?_⟩
    revert n; decide
  | flats n =>
    have : ∀ n : BitVec 3, KeySharpsFlats.faithful (.flats n) = true →
        (match KeySharpsFlats.intoNibble (.flats n) with
          | .ok c => KeySharpsFlats.fromNibble c == .flats n
          | _ => false) = true := by decide
    have := this n h
    split at this
    · next c e => exact ⟨c, e, eq_of_beq this⟩
    · cases this
theorem controller_codec (v : Controller) (h : v.faithful = true) :
    ∃ i d, v.toIndexAndData = .ok (i, d) ∧ Controller.fromIndexAndData i d = .ok v ∧
      Controller.validateIndex i = .ok () := by
  cases v <;> first
    | exact ⟨_, _, rfl, rfl, rfl⟩
    | exact absurd (show false = true from h) (by decide)
    | skip
  case soundController i d =>
    simp only [Controller.faithful, decide_eq_true_eq] at h
    obtain ⟨k, hk⟩ : ∃ k, i.toNat = k := ⟨_, rfl⟩
    have hi : i = BitVec.ofNat 8 k := by rw [← hk]; simp
    have : k = 1 ∨ k = 2 ∨ k = 3 ∨ k = 4 ∨ k = 5 ∨ k = 6 ∨ k = 7 ∨ k = 8 ∨ k = 9 ∨ k = 10 := by
      omega
    rcases this with e | e | e | e | e | e | e | e | e | e <;> subst e <;> subst hi <;>
      exact ⟨_, _, rfl, rfl, rfl⟩
  case effectDepth i d =>
    simp only [Controller.faithful, decide_eq_true_eq] at h
    obtain ⟨k, hk⟩ : ∃ k, i.toNat = k := ⟨_, rfl⟩
    have hi : i = BitVec.ofNat 8 k := by rw [← hk]; simp
    have : k = 1 ∨ k = 2 ∨ k = 3 ∨ k = 4 := by omega
    rcases this with e | e | e | e <;> subst e <;> subst hi <;> exact ⟨_, _, rfl, rfl, rfl⟩


theorem u20_mask_getLsbD (k : Nat) : (0x000FFFFF#32).getLsbD k = decide (k < 20) := by
  have : (0x000FFFFF#32) = (BitVec.allOnes 20).setWidth 32 := by decide
  rw [this]
  simp only [BitVec.getLsbD_setWidth, BitVec.getLsbD_allOnes]
  by_cases h : k < 20 <;> simp [h]
  omega

theorem u20_set_eq (w : BitVec 32) (v : BitVec 20) :
    (w &&& ~~~0x000FFFFF#32) ||| v.setWidth 32 = ins w 0 v := by
  apply BitVec.eq_of_getLsbD_eq
  intro k hk
  rw [getLsbD_ins]
  simp only [BitVec.getLsbD_or, BitVec.getLsbD_and, BitVec.getLsbD_not, u20_mask_getLsbD,
    BitVec.getLsbD_setWidth]
  by_cases h : k < 20
  · simp [hk, h]
  · rw [BitVec.getLsbD_of_ge v _ (by omega)]
    simp [hk, h]

theorem u20_get_eq (w : BitVec 32) : (w &&& 0x000FFFFF#32).setWidth 20 = w.extractLsb' 0 20 := by
  have := ext_eq (m := 20) w 0 0x000FFFFF#32 (by decide) (by omega)
  simpa using this

/-- What a setter must do: change only the property's bits, be read back, validate. -/
def WriteOk (f : Fld) (b : List (BitVec 32)) (v : f.Ty) : Prop :=
  ∃ b', f.write32 b v = .ok b' ∧ SameOff f.umpBits.at b b' ∧ f.read32 b' = .ok v ∧
    f.validate32 b' = .ok ()

theorem at'_set_self {α : Type} {b : List α} {i : Nat} (w : α) (h : i < b.length) :
    at' (b.set i w) i = .ok w := by
  rw [at'_ok (by simpa using h)]; simp

theorem at'_set_ne {α : Type} {b : List α} {i j : Nat} (w : α) (h : i ≠ j) :
    at' (b.set i w) j = at' b j := by
  simp [at', List.getElem?_set_ne h]

theorem attr_write (b : List (BitVec 32)) (h0 : 0 < b.length) (h1 : 1 < b.length)
    (c : BitVec 8) (d : BitVec 16) :
    ∃ b1 b', modifyAt b 0 (fun w => U32.setOctet w 3 c) = .ok b1 ∧
        modifyAt b1 1 (fun w => U32.setWord w 1 d) = .ok b' ∧
      SameOff Fld.noteAttribute.umpBits.at b b' ∧ (∃ w, at' b' 0 = .ok w ∧ U32.octet w 3 = c) ∧
      (∃ w, at' b' 1 = .ok w ∧ U32.word w 1 = d) := by
  have l1 : 1 < (b.set 0 (U32.setOctet b[0] 3 c)).length := by simpa using h1
  refine ⟨_, _, modifyAt_ok _ h0, modifyAt_ok _ l1, ?_, ?_, ?_⟩
  · refine (SameOff.set b 0 _ fun _ => ?_).trans (SameOff.set _ 1 _ fun _ => ?_)
    · rw [U32.setOctet_eq]; exact ins_off _ _ (by decide)
    · rw [U32.setWord_eq]; exact ins_off _ _ (by decide)
  · refine ⟨U32.setOctet b[0] 3 c, ?_, ?_⟩
    · rw [at'_set_ne _ (by omega), at'_set_self _ h0]
    · rw [U32.octet_eq, U32.setOctet_eq, ext_ins_same _ _ _ (by omega)]
  · refine ⟨_, at'_set_self _ l1, ?_⟩
    rw [U32.word_eq, U32.setWord_eq, ext_ins_same _ _ _ (by omega)]

theorem Fld.write32_attribute (b : List (BitVec 32)) (h : 2 ≤ b.length) (v : Option Attribute) :
    WriteOk .noteAttribute b v := by
  have h0 : 0 < b.length := by omega
  have h1 : 1 < b.length := by omega
  match v with
  | none =>
    refine ⟨b.set 0 (U32.setOctet b[0] 3 0), ?_, ?_, ?_, ?_⟩
    · simp only [write32, modifyAt_ok _ h0, Res.ok_bind, sliceTo]
      rw [if_pos (by simpa using h)]; rfl
    · exact SameOff.set _ _ _ fun _ => by rw [U32.setOctet_eq]; exact ins_off _ _ (by decide)
    · simp only [read32, at'_set_self _ h0, Res.ok_bind, U32.octet_eq, U32.setOctet_eq]
      rw [ext_ins_same _ _ _ (by omega)]; rfl
    · simp only [validate32, at'_set_self _ h0, Res.ok_bind, U32.octet_eq, U32.setOctet_eq]
      rw [ext_ins_same _ _ _ (by omega)]; rfl
  | some (.manufacturerSpecific d) =>
    obtain ⟨b1, b', e, e', hs, ⟨w0, a0, c0⟩, w1, a1, c1⟩ := attr_write b h0 h1 0x1 d
    refine ⟨b', ?_, hs, ?_, ?_⟩
    · simp only [write32, e, e', Res.ok_bind, sliceTo]; rw [if_pos (by rw [← hs.1]; exact h)]; rfl
    · simp only [read32, a0, a1, Res.ok_bind, c0, c1]; rfl
    · simp only [validate32, a0, Res.ok_bind, c0]; rfl
  | some (.profileSpecific d) =>
    obtain ⟨b1, b', e, e', hs, ⟨w0, a0, c0⟩, w1, a1, c1⟩ := attr_write b h0 h1 0x2 d
    refine ⟨b', ?_, hs, ?_, ?_⟩
    · simp only [write32, e, e', Res.ok_bind, sliceTo]; rw [if_pos (by rw [← hs.1]; exact h)]; rfl
    · simp only [read32, a0, a1, Res.ok_bind, c0, c1]; rfl
    · simp only [validate32, a0, Res.ok_bind, c0]; rfl
  | some (.pitch7_9 d) =>
    obtain ⟨b1, b', e, e', hs, ⟨w0, a0, c0⟩, w1, a1, c1⟩ := attr_write b h0 h1 0x3 d
    refine ⟨b', ?_, hs, ?_, ?_⟩
    · simp only [write32, e, e', Res.ok_bind, sliceTo]; rw [if_pos (by rw [← hs.1]; exact h)]; rfl
    · simp only [read32, a0, a1, Res.ok_bind, c0, c1]; rfl
    · simp only [validate32, a0, Res.ok_bind, c0]; rfl

theorem Fld.write32_controller (b : List (BitVec 32)) (h : 2 ≤ b.length) (v : Controller)
    (hv : v.faithful = true) : WriteOk .controller b v := by
  have h0 : 0 < b.length := by omega
  obtain ⟨i, d, e1, e2, e3⟩ := controller_codec v hv
  have l1 : 1 < (b.set 0 (U32.setOctet b[0] 3 i)).length := by simp; omega
  refine ⟨(b.set 0 (U32.setOctet b[0] 3 i)).set 1 d, ?_, ?_, ?_, ?_⟩
  · simp only [write32, e1, Res.ok_bind, modifyAt_ok _ h0, modifyAt_ok _ l1]
  · refine (SameOff.set b 0 _ fun _ => ?_).trans (SameOff.set _ 1 _ fun _ => ?_)
    · rw [U32.setOctet_eq]; exact ins_off _ _ (by decide)
    · simp [Fld.umpBits, UmpSchema.at]
  · simp only [read32, at'_set_ne _ (show (1 : Nat) ≠ 0 by omega), at'_set_self _ h0,
      at'_set_self _ l1, Res.ok_bind, U32.octet_eq, U32.setOctet_eq]
    rw [ext_ins_same _ _ _ (by omega), ← U32.setOctet_eq, at'_set_self _ l1]
    exact e2
  · simp only [validate32, at'_set_ne _ (show (1 : Nat) ≠ 0 by omega), at'_set_self _ h0,
      Res.ok_bind, U32.octet_eq, U32.setOctet_eq]
    rw [ext_ins_same _ _ _ (by omega), e3]

theorem Fld.write32_programBank (b : List (BitVec 32)) (h : 2 ≤ b.length)
    (v : Option (BitVec 14)) : WriteOk .programBank b v := by
  have h0 : 0 < b.length := by omega
  have h1 : 1 < b.length := by omega
  cases v with
  | none =>
    have l1 : 1 < (b.set 0 (U32.setBit b[0] 31 false)).length := by simp; omega
    refine ⟨(b.set 0 (U32.setBit b[0] 31 false)).set 1
      (U32.setWord (b.set 0 (U32.setBit b[0] 31 false))[1] 1 0), ?_, ?_, ?_, rfl⟩
    · simp only [write32, modifyAt_ok _ h0, Res.ok_bind]; rw [modifyAt_ok _ l1]
    · refine (SameOff.set b 0 _ fun _ => ?_).trans (SameOff.set _ 1 _ fun _ => ?_)
      · rw [U32.setBit_eq]; exact ins_off _ _ (by decide)
      · rw [U32.setWord_eq]; exact ins_off _ _ (by decide)
    · simp only [read32, at'_set_ne _ (show (1 : Nat) ≠ 0 by omega), at'_set_self _ h0,
        Res.ok_bind, U32.bit_eq, U32.setBit_eq]
      rw [bit_ins_same _ _ _ (by omega)]; rfl
  | some v =>
    let u := u14ToU7s (BitVec 7) v
    let w1 := U32.setOctet b[1] 2 (u.1.setWidth 8)
    let w2 := U32.setOctet w1 3 (u.2.setWidth 8)
    have l1 : 1 < (b.set 1 w1).length := by simpa using h1
    have l0 : 0 < (b.set 1 w2).length := by simpa using h0
    have g0 : (b.set 1 w2)[0] = b[0] := by simp
    refine ⟨(b.set 1 w2).set 0 (U32.setBit b[0] 31 true), ?_, ?_, ?_, rfl⟩
    · simp only [write32, modifyAt_ok _ h1, Res.ok_bind]
      have e : (b.set 1 (U32.setOctet b[1] 2 ((u14ToU7s (BitVec 7) v).1.setWidth 8)))
          = b.set 1 w1 := rfl
      rw [e, modifyAt_ok _ l1]
      simp only [Res.ok_bind, List.getElem_set_self, List.set_set]
      have e : (b.set 1 (U32.setOctet w1 3 ((u14ToU7s (BitVec 7) v).2.setWidth 8)))
          = b.set 1 w2 := rfl
      rw [e, modifyAt_ok _ l0, g0]
    · refine (SameOff.set b 1 _ fun _ => ?_).trans (SameOff.set _ 0 _ fun _ => ?_)
      · simp only [w2, w1, U32.setOctet_eq]
        rw [← ins_off _ _ (by decide), ← ins_off _ _ (by decide)]
      · rw [g0, U32.setBit_eq]; exact ins_off _ _ (by decide)
    · simp only [read32, at'_set_self _ l0, at'_set_ne _ (show (0 : Nat) ≠ 1 by omega),
        at'_set_self _ h1, Res.ok_bind, U32.bit_eq, U32.setBit_eq]
      rw [bit_ins_same _ _ _ (by omega)]
      simp only [w2, w1, U32.octet_eq, U32.setOctet_eq, if_true]
      rw [ext_ins_same _ _ _ (by omega), ext_ins_disjoint _ _ _ _ (by omega),
        ext_ins_same _ _ _ (by omega)]
      simp only [u, u14_roundtrip_octets, Res.pure_eq]

theorem channel_write (b : List (BitVec 32)) (h0 : 0 < b.length) (a : BitVec 2) (c : BitVec 4) :
    (modifyAt b 0 (fun w => U32.setCrumb w 5 a) >>= fun b =>
        modifyAt b 0 (fun w => U32.setNibble w 3 c)) =
        .ok (b.set 0 (ins (ins b[0] 20 a) 16 c)) ∧
      SameOff Fld.flexNoChannel.umpBits.at b (b.set 0 (ins (ins b[0] 20 a) 16 c)) := by
  have l0 : 0 < (b.set 0 (U32.setCrumb b[0] 5 a)).length := by simpa using h0
  constructor
  · rw [modifyAt_ok _ h0]
    simp only [Res.ok_bind]
    rw [modifyAt_ok _ l0]
    simp [U32.setCrumb_eq, U32.setNibble_eq]
  · exact SameOff.set _ _ _ fun _ => by
      rw [← ins_off _ _ (by decide), ← ins_off _ _ (by decide)]

/-- The write law for every property whose code looks at fixed positions. -/
theorem Fld.write32_law (f : Fld) (hr : f.ranging = false) (him : f.implemented = true)
    {b : List (BitVec 32)} (hn : f.umpBits.need ≤ b.length) (v : f.Ty)
    (hv : f.faithful v = true) : WriteOk f b v := by
  cases f
  case flexStatus | flexBank | streamStatus | streamFormats =>
    exact absurd (show true = false from hr) (by decide)
  case umpType t =>
    have h0 : 0 < b.length := Nat.lt_of_lt_of_le (by simp [umpBits, UmpSchema.need]) hn
    refine ⟨_, modifyAt_ok _ h0, SameOff.set _ _ _ fun _ => ?_, rfl, ?_⟩
    · rw [U32.setNibble_eq]; exact ins_off _ _ (by simp only [umpBits, UmpSchema.at]; decide)
    · simp only [validate32, at'_set_self _ h0, Res.ok_bind, U32.nibble_eq, U32.setNibble_eq]
      rw [ext_ins_same _ _ _ (by omega)]; simp
  case cvStatus t =>
    have h0 : 0 < b.length := Nat.lt_of_lt_of_le (by simp [umpBits, UmpSchema.need]) hn
    refine ⟨_, modifyAt_ok _ h0, SameOff.set _ _ _ fun _ => ?_, rfl, ?_⟩
    · rw [U32.setNibble_eq]; exact ins_off _ _ (by simp only [umpBits, UmpSchema.at]; decide)
    · simp only [validate32, at'_set_self _ h0, Res.ok_bind, U32.nibble_eq, U32.setNibble_eq]
      rw [ext_ins_same _ _ _ (by omega)]; simp
  case sysStatus t =>
    have h0 : 0 < b.length := Nat.lt_of_lt_of_le (by simp [umpBits, UmpSchema.need]) hn
    refine ⟨_, modifyAt_ok _ h0, SameOff.set _ _ _ fun _ => ?_, rfl, ?_⟩
    · rw [U32.setOctet_eq]; exact ins_off _ _ (by simp only [umpBits, UmpSchema.at]; decide)
    · simp only [validate32, at'_set_self _ h0, Res.ok_bind, U32.octet_eq, U32.setOctet_eq]
      rw [ext_ins_same _ _ _ (by omega)]; simp
  case hybrid r y u =>
    obtain ⟨b', e1, e2, e3⟩ := umpWrite_law him hn v
    exact ⟨b', e1, e2, e3, by simp only [validate32]⟩
  case schema r u =>
    obtain ⟨b', e1, e2, e3⟩ := umpWrite_law him hn v
    exact ⟨b', e1, e2, e3, by simp only [validate32]⟩
  case utilData =>
    have h0 : 0 < b.length := Nat.lt_of_lt_of_le (by decide) hn
    refine ⟨_, modifyAt_ok _ h0, SameOff.set _ _ _ fun _ => ?_, ?_, by simp only [validate32]⟩
    · rw [U32.setWord_eq]; exact ins_off _ _ (by decide)
    · simp only [read32, at'_set_self _ h0, Res.ok_bind, U32.word_eq, U32.setWord_eq]
      rw [ext_ins_same _ _ _ (by omega)]; rfl
  case u20Data =>
    have h0 : 0 < b.length := Nat.lt_of_lt_of_le (by decide) hn
    refine ⟨_, modifyAt_ok _ h0, SameOff.set _ _ _ fun _ => ?_, ?_, by simp only [validate32]⟩
    · rw [u20_set_eq]; exact ins_off _ _ (by decide)
    · simp only [read32, at'_set_self _ h0, Res.ok_bind, u20_set_eq, u20_get_eq]
      rw [ext_ins_same _ _ _ (by omega)]; rfl
  case noteAttribute => exact write32_attribute b hn v
  case controller => exact write32_controller b hn v hv
  case programBank => exact write32_programBank b hn v
  case flexFormat x =>
    have h0 : 0 < b.length := Nat.lt_of_lt_of_le (by simp [umpBits, UmpSchema.need]) hn
    refine ⟨_, modifyAt_ok _ h0, SameOff.set _ _ _ fun _ => ?_, rfl, ?_⟩
    · rw [U32.setCrumb_eq]; exact ins_off _ _ (by simp only [umpBits, UmpSchema.at]; decide)
    · simp only [validate32, at'_set_self _ h0, Res.ok_bind, U32.crumb_eq, U32.setCrumb_eq]
      rw [ext_ins_same _ _ _ (by omega)]; simp
  case flexOptionalChannel =>
    have h0 : 0 < b.length := Nat.lt_of_lt_of_le (by decide) hn
    match v with
    | some c =>
      obtain ⟨e1, e2⟩ := channel_write b h0 0 c
      refine ⟨_, e1, e2, ?_, by simp only [validate32]⟩
      simp only [read32, at'_set_self _ h0, Res.ok_bind, U32.crumb_eq, U32.nibble_eq]
      rw [ext_ins_disjoint _ _ _ _ (by omega), ext_ins_same _ _ _ (by omega),
        ext_ins_same _ _ _ (by omega)]; rfl
    | none =>
      obtain ⟨e1, e2⟩ := channel_write b h0 1 0
      refine ⟨_, e1, e2, ?_, by simp only [validate32]⟩
      simp only [read32, at'_set_self _ h0, Res.ok_bind, U32.crumb_eq, U32.nibble_eq]
      rw [ext_ins_disjoint _ _ _ _ (by omega), ext_ins_same _ _ _ (by omega)]; rfl
  case flexNoChannel =>
    have h0 : 0 < b.length := Nat.lt_of_lt_of_le (by decide) hn
    obtain ⟨e1, e2⟩ := channel_write b h0 1 0
    refine ⟨_, e1, e2, rfl, ?_⟩
    simp only [validate32, at'_set_self _ h0, Res.ok_bind, U32.crumb_eq]
    rw [ext_ins_disjoint _ _ _ _ (by omega), ext_ins_same _ _ _ (by omega)]; rfl
  case tonic s =>
    obtain ⟨i, hi⟩ := implOf_ok him
    obtain ⟨hc, _⟩ := tonic_covers hi
    have h0 : i < b.length :=
      Nat.lt_of_lt_of_le (lt_need (covers_ne_zero hc (by omega) (by omega))) hn
    obtain ⟨e1, e2, e3⟩ := cell_update (Tonic.intoNibble v) h0 hc
    refine ⟨_, ?_, e2, ?_, ?_⟩
    · simp only [write32, hi, Res.ok_bind]; exact e1
    · simp only [read32, hi, Res.ok_bind, e3, U32.nibble_eq]
      rw [ext_ins_same _ _ _ (by omega), tonic_codec]; rfl
    · simp only [validate32, hi, Res.ok_bind, e3, U32.nibble_eq]
      rw [ext_ins_same _ _ _ (by omega), tonic_codec]; rfl
  case keySharpsFlats =>
    have h1 : 1 < b.length := Nat.lt_of_lt_of_le (by decide) hn
    obtain ⟨c, e1, e2⟩ := keySF_codec v hv
    refine ⟨b.set 1 (U32.setNibble b[1] 0 c), ?_, SameOff.set _ _ _ fun _ => ?_, ?_,
      by simp only [validate32]⟩
    · simp only [write32, e1, Res.ok_bind, modifyAt_ok _ h1]
    · rw [U32.setNibble_eq]; exact ins_off _ _ (by decide)
    · simp only [read32, at'_set_self _ h1, Res.ok_bind, U32.nibble_eq, U32.setNibble_eq]
      rw [ext_ins_same _ _ _ (by omega), e2]; rfl
  case chordSharpsFlats s =>
    obtain ⟨i, hi⟩ := implOf_ok him
    obtain ⟨hc, _⟩ := chordSF_covers hi
    have h0 : i < b.length :=
      Nat.lt_of_lt_of_le (lt_need (covers_ne_zero hc (by omega) (by omega))) hn
    obtain ⟨e1, e2, e3⟩ := cell_update (ChordSharpsFlats.intoNibble v) h0 hc
    refine ⟨_, ?_, e2, ?_, ?_⟩
    · simp only [write32, hi, Res.ok_bind]; exact e1
    · simp only [read32, hi, Res.ok_bind, e3, U32.nibble_eq]
      rw [ext_ins_same _ _ _ (by omega), chordSF_codec]; rfl
    · simp only [validate32, hi, Res.ok_bind, e3, U32.nibble_eq]
      rw [ext_ins_same _ _ _ (by omega), chordSF_codec]; rfl
  case chordType s =>
    obtain ⟨i, hi⟩ := implOf_ok him
    obtain ⟨hc, _⟩ := chordType_covers hi
    have h0 : i < b.length :=
      Nat.lt_of_lt_of_le (lt_need (covers_ne_zero hc (by omega) (by omega))) hn
    obtain ⟨e1, e2, e3⟩ := cell_update (ChordType.intoOctet v) h0 hc
    refine ⟨_, ?_, e2, ?_, ?_⟩
    · simp only [write32, hi, Res.ok_bind]; exact e1
    · simp only [read32, hi, Res.ok_bind, e3, U32.octet_eq]
      rw [ext_ins_same _ _ _ (by omega), chordType_codec]; rfl
    · simp only [validate32, hi, Res.ok_bind, e3, U32.octet_eq]
      rw [ext_ins_same _ _ _ (by omega), chordType_codec]; rfl
  case alteration s =>
    obtain ⟨⟨i, j⟩, hi⟩ := implOf_ok him
    obtain ⟨hc, _, hj⟩ := alteration_covers hi
    have h0 : i < b.length :=
      Nat.lt_of_lt_of_le (lt_need (covers_ne_zero hc (by omega) (by omega))) hn
    obtain ⟨e1, e2, e3⟩ := cell_update (Alteration.intoOctet v) h0 hc
    refine ⟨_, ?_, e2, ?_, ?_⟩
    · simp only [write32, hi, Res.ok_bind]; exact e1
    · simp only [read32, hi, Res.ok_bind, e3, U32.octet_eq]
      rw [ext_ins_same _ _ _ (by omega), alteration_codec]; rfl
    · simp only [validate32, hi, Res.ok_bind, e3, U32.octet_eq]
      rw [ext_ins_same _ _ _ (by omega), alteration_codec]; rfl
  case uiHint =>
    have h0 : 0 < b.length := Nat.lt_of_lt_of_le (by decide) hn
    refine ⟨_, modifyAt_ok _ h0, SameOff.set _ _ _ fun _ => ?_, ?_, by simp only [validate32]⟩
    · rw [U32.setCrumb_eq]; exact ins_off _ _ (by decide)
    · simp only [read32, at'_set_self _ h0, Res.ok_bind, U32.crumb_eq, U32.setCrumb_eq]
      rw [ext_ins_same _ _ _ (by omega), uiHint_codec]; rfl
  case midi1Port =>
    have h0 : 0 < b.length := Nat.lt_of_lt_of_le (by decide) hn
    refine ⟨_, modifyAt_ok _ h0, SameOff.set _ _ _ fun _ => ?_, ?_, ?_⟩
    · rw [U32.setCrumb_eq]; exact ins_off _ _ (by decide)
    · simp only [read32, at'_set_self _ h0, Res.ok_bind, U32.crumb_eq, U32.setCrumb_eq]
      rw [ext_ins_same _ _ _ (by omega), midi1Port_codec]; rfl
    · simp only [validate32, at'_set_self _ h0, Res.ok_bind, U32.crumb_eq, U32.setCrumb_eq]
      rw [ext_ins_same _ _ _ (by omega), midi1Port_codec]; rfl
  case direction =>
    have h0 : 0 < b.length := Nat.lt_of_lt_of_le (by decide) hn
    refine ⟨_, modifyAt_ok _ h0, SameOff.set _ _ _ fun _ => ?_, ?_, ?_⟩
    · rw [U32.setCrumb_eq]; exact ins_off _ _ (by decide)
    · simp only [read32, at'_set_self _ h0, Res.ok_bind, U32.crumb_eq, U32.setCrumb_eq]
      rw [ext_ins_same _ _ _ (by omega), direction_codec]; rfl
    · simp only [validate32, at'_set_self _ h0, Res.ok_bind, U32.crumb_eq, U32.setCrumb_eq]
      rw [ext_ins_same _ _ _ (by omega), direction_codec]; rfl

end Midi2
