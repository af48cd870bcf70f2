import Verif.Lemmas.BehindSysex
import Verif.Lemmas.TextTail
import Verif.Props.TextNewExact

/-! # Lemmas: text messages in a part of a larger array -/

namespace Midi2

theorem word_of_octets {b c : Buf .ump} {i : Nat}
    (h : ∀ r, r < 4 → octetAt b (4 * i + r) = octetAt c (4 * i + r)) : b[i]? = c[i]? := by
  have key : ∀ r, r < 4 → (b[i]?).map (U32.octet · r) = (c[i]?).map (U32.octet · r) := by
    intro r hr
    have := h r hr
    unfold octetAt at this
    rwa [show (4 * i + r) / 4 = i by omega, show (4 * i + r) % 4 = r by omega] at this
  cases hb : b[i]? with
  | none =>
    cases hc : c[i]? with
    | none => rfl
    | some y => have := key 0 (by omega); rw [hb, hc] at this; cases this
  | some x =>
    cases hc : c[i]? with
    | none => have := key 0 (by omega); rw [hb, hc] at this; cases this
    | some y =>
      congr 1
      apply U32.eq_of_octets
      intro r hr
      have := key r hr
      rw [hb, hc] at this
      exact Option.some.inj this

theorem word_of_zeros {b : Buf .ump} {i : Nat}
    (h : ∀ r, r < 4 → octetAt b (4 * i + r) = some 0) : b[i]? = some 0 := by
  have key : ∀ r, r < 4 → (b[i]?).map (U32.octet · r) = some 0 := by
    intro r hr
    have := h r hr
    unfold octetAt at this
    rwa [show (4 * i + r) / 4 = i by omega, show (4 * i + r) % 4 = r by omega] at this
  cases hb : b[i]? with
  | none => have := key 0 (by omega); rw [hb] at this; cases this
  | some x =>
    congr 1
    apply U32.eq_of_octets
    intro r hr
    have := key r hr
    rw [hb] at this
    rw [show U32.octet x r = 0 from Option.some.inj this]
    have : ∀ r, r < 4 → (0 : BitVec 8) = U32.octet 0 r := by decide
    exact this r hr

theorem zeroPrefix_hi (b : Buf .ump) {i : Nat} (hi : 4 ≤ i) :
    (zeroPrefix b 4)[i]? = b[i]? := by
  unfold zeroPrefix
  rw [List.getElem?_append_right (by rw [List.length_replicate]; omega), List.length_replicate,
    List.getElem?_drop]
  congr 1
  omega

theorem zeroPrefix_len (b : Buf .ump) (hb : 4 ≤ b.length) : (zeroPrefix b 4).length = b.length := by
  unfold zeroPrefix
  rw [List.length_append, List.length_replicate, List.length_drop]; omega

/-- Packets of type flex data from the front on. -/
theorem FlexText.run_of_lead {b y : Buf .ump} (hb : 4 ≤ b.length) (h1 : y.length = b.length)
    (h2 : fieldAt y 0 0 4 = some 13) (h3 : ∀ i, 4 ≤ i → fieldAt y i 0 4 = fieldAt b i 0 4) :
    RunBehind 4 13 b (FlexText.lead y) := by
  have h13 : ∀ w : BitVec 32, (U32.nibble w 0 == 0xD#4) = true ↔ field w 0 4 = 13 := by
    intro w
    rw [beq_iff_eq, ← nibble_field w (i := 0) (by omega)]
    exact ⟨fun h => by rw [h]; rfl, fun h => BitVec.eq_of_toNat_eq h⟩
  have hmax : ∀ p, 4 * p ≤ b.length →
      (∀ j, 0 < j → j < p → fieldAt b (4 * j) 0 4 = some 13) → p ≤ FlexText.lead y := by
    intro p hp hj
    apply le_leading (by omega) _ y p (by rw [h1]; exact hp)
    intro j hjp
    have hx : fieldAt y (4 * j) 0 4 = some 13 := by
      by_cases h0 : j = 0
      · subst h0; exact h2
      · rw [h3 _ (by omega)]; exact hj j (by omega) hjp
    unfold fieldAt at hx
    obtain ⟨w, w1, w2⟩ := Option.map_eq_some_iff.mp hx
    exact ⟨w, w1, (h13 w).mpr w2⟩
  have hspec : ∀ j, 0 < j → j < FlexText.lead y → fieldAt b (4 * j) 0 4 = some 13 := by
    intro j h0 hj
    obtain ⟨_, w, w1, w2⟩ := leading_spec (by omega) _ y j hj
    rw [← h3 _ (by omega), fieldAt_ext w1, (h13 w).mp w2]
  have hpos : 0 < FlexText.lead y := hmax 1 (by omega) (fun j _ _ => by omega)
  refine ⟨hpos, ?_, hspec, fun g1 g2 => ?_⟩
  · have := (leading_spec (s := 4) (by omega) _ y (FlexText.lead y - 1)
      (by show _ < FlexText.lead y; omega)).1
    omega
  · have := hmax (FlexText.lead y + 1) g1 (fun j j1 j2 => by
      by_cases hj : j = FlexText.lead y
      · rw [hj]; exact g2
      · exact hspec j j1 (by omega))
    omega

theorem field_group24 (w : BitVec 32) (g : BitVec 4) :
    field (U32.setNibble w 1 g) 0 4 = field w 0 4 ∧ field (U32.setNibble w 1 g) 4 4 = g.toNat ∧
    field (U32.setNibble w 1 g) 8 24 = field w 8 24 := by
  rw [U32.setNibble_eq]
  exact ⟨field_ins_ne _ _ _ (by omega), field_ins_same (pos := 4) w g (by omega),
    field_ins_ne _ _ _ (by omega)⟩

/-- `set_group` of a flex data text. -/
theorem FlexText.setGroup_behind {b y : Buf .ump} (hb : 4 ≤ b.length) (h1 : y.length = b.length)
    (h2 : fieldAt y 0 0 4 = some 13) (h3 : ∀ i, 4 ≤ i → y[i]? = b[i]?) (g : BitVec 4) :
    ∃ n, RunBehind 4 13 b n ∧ FlexBehind g.toNat n b (FlexText.setGroup y g) := by
  refine ⟨_, FlexText.run_of_lead hb h1 h2 (fun i hi => by unfold fieldAt; rw [h3 i hi]),
    by rw [FlexText.setGroup_length, h1], fun i hi hlt => ⟨fun hn => ?_, fun i1 i2 => ?_⟩⟩
  · rw [FlexText.setGroup_word, if_neg hn, h3 i hi]
  · have hx : (FlexText.setGroup y g)[i]? = some (U32.setNibble b[i] 1 g) := by
      rw [FlexText.setGroup_word, if_pos ⟨i1, i2⟩, h3 i hi, List.getElem?_eq_getElem hlt]; rfl
    have xb : b[i]? = some b[i] := List.getElem?_eq_getElem hlt
    obtain ⟨f1, f2, f3⟩ := field_group24 b[i] g
    rw [fieldAt_ext hx, fieldAt_ext hx, fieldAt_ext hx, fieldAt_ext xb, fieldAt_ext xb, f1, f2, f3]
    exact ⟨rfl, rfl, rfl⟩

theorem FlexBehind.congr {g n : Nat} {b x y : List (BitVec 32)} (h : FlexBehind g n b x)
    (hl : y.length = x.length) (hy : ∀ i, i ≠ 0 → y[i]? = x[i]?) : FlexBehind g n b y := by
  refine ⟨by rw [hl, h.1], fun i hi hlt => ?_⟩
  have e := hy i (by omega)
  obtain ⟨a1, a2⟩ := h.2 i hi hlt
  unfold fieldAt at *
  rw [e]
  exact ⟨a1, a2⟩

/-- A new flex data text at the front of an array. -/
theorem FlexText.new_behind (t : FlexText) {b : Buf .ump} (hb : 4 ≤ b.length) :
    ∃ x n, t.tryNewWithBuffer b = .ok x ∧ t.Backs x ∧ FlexText.group x = .ok 0 ∧
      FlexText.channel x = .ok none ∧ RunBehind 4 13 b n ∧ FlexBehind 0 n b x := by
  have hz := zeroPrefix_len b hb
  have h0 : (zeroPrefix b 4)[0]? = some 0 := rfl
  obtain ⟨x, e1, e2, e3, e4, e5⟩ := FlexText.init_backs t (b := zeroPrefix b 4) (by omega) h0
  have hnew : t.tryNewWithBuffer b = .ok x := by
    unfold FlexText.tryNewWithBuffer fixedTryResize
    rw [if_neg (by omega)]; exact e1
  have hz0 : 0 < (zeroPrefix b 4).length := by omega
  have d1 : ∀ z : Buf .ump, z[0]? = some 0 → (Fld.umpType 0xD).write32 z () =
      .ok (z.set 0 (U32.setNibble 0 0 0xD)) := by
    intro z hz
    show modifyAt z 0 _ = _
    unfold modifyAt; rw [hz]
  have d1 := d1 _ h0
  generalize hy : (zeroPrefix b 4).set 0 (U32.setNibble 0 0 0xD) = y at d1
  have hyl : y.length = b.length := by rw [← hy, List.length_set, hz]
  have hy0 : y[0]? = some (U32.setNibble 0 0 0xD) := by rw [← hy, List.getElem?_set_self hz0]
  have hyi : ∀ i, 4 ≤ i → y[i]? = b[i]? := fun i hi => by
    rw [← hy, List.getElem?_set_ne (by omega), zeroPrefix_hi b hi]
  obtain ⟨n, n1, n2⟩ := FlexText.setGroup_behind hb hyl
    (by rw [fieldAt_ext hy0]; decide) hyi 0
  refine ⟨x, n, hnew, e3, e4, e5, n1, n2.congr (by rw [e2, hz, n2.1]) ?_⟩
  have key : ∀ (f : BitVec 32 → BitVec 32) (u v : Buf .ump), modifyAt u 0 f = .ok v →
      ∀ i, i ≠ 0 → v[i]? = u[i]? := by
    intro f u v h i hi
    unfold modifyAt at h
    split at h
    · cases h
      rw [List.getElem?_set_ne (by omega)]
    · cases h
  unfold FlexText.init at e1
  rw [d1, Res.ok_bind] at e1
  obtain ⟨v1, a1, e1⟩ := bind_inv e1
  obtain ⟨v2, a2, e1⟩ := bind_inv e1
  obtain ⟨v3, a3, e1⟩ := bind_inv e1
  have : v3 = x := by cases e1; rfl
  subst this
  intro i hi
  rw [key _ _ _ a3 i hi, key _ _ _ a2 i hi, key _ _ _ a1 i hi]

/-- A new stream text at the front of an array. -/
theorem StreamText.new_behind {t : StreamText} (K : t.Known) {b : Buf .ump} (hb : 4 ≤ b.length) :
    ∃ x n, t.tryNewWithBuffer b = .ok x ∧ t.Backs x ∧ RunBehind 4 15 b n ∧
      StreamTextBehind (t.offset == 1) t.status.toNat n b x ∧
      (t.offset = 1 → ∀ j, j < b.length / 4 → StreamText.blockAt x j = 0) := by
  have hz := zeroPrefix_len b hb
  have ho := K.off
  obtain ⟨x, n, e1, e2, -, -, -, -, e7, -⟩ :=
    StreamText.init_any K (b := zeroPrefix b 4) (by omega) rfl
  have hnew : t.tryNewWithBuffer b = .ok x := by
    unfold StreamText.tryNewWithBuffer fixedTryResize
    rw [if_neg (by omega)]; exact e1
  have hB : t.Backs x := StreamText.backs_of_word K (by omega) e7 (StreamText.newWord_type K n)
    (StreamText.newWord_status K n)
  obtain ⟨y, p, y1, y2, ⟨y3, y4⟩, -⟩ := stream_front K.status (used := 4) (by omega) (by omega) hb hz
    (fun i hi => zeroPrefix_hi b hi)
  have hx : x = if t.offset = 1 then StreamText.setBlock y 0 else y := by
    have y1 : ((Fld.umpType 0xF).write32 (zeroPrefix b 4) () >>= fun b1 =>
      (Fld.streamStatus t.status).write32 b1 () >>=
      fun b2 => Fld.streamFormats.write32 b2 () >>= fun b3 => Res.ok b3) = .ok y := y1
    obtain ⟨v1, a1, y1⟩ := bind_inv y1
    obtain ⟨v2, a2, y1⟩ := bind_inv y1
    obtain ⟨v3, a3, y1⟩ := bind_inv y1
    cases y1
    unfold StreamText.init at e1
    rw [a1, Res.ok_bind, a2, Res.ok_bind, a3, Res.ok_bind] at e1
    cases e1
    rfl
  refine ⟨x, p, hnew, hB, y2, ⟨by rw [e2, hz], fun i hi hlt => ?_⟩, fun h1 j hj => ?_⟩
  · obtain ⟨a1, a2⟩ := y4 i hi hlt
    have xb : b[i]? = some b[i] := List.getElem?_eq_getElem hlt
    have xy : y[i]? = some (y[i]'(by omega)) := List.getElem?_eq_getElem (by omega)
    by_cases h1 : t.offset = 1
    · rw [if_pos h1] at hx
      subst hx
      constructor
      · intro hn
        have hn' : ¬ (i % 4 = 0 ∧ i + 4 ≤ b.length) := hn
        rw [StreamText.setBlock_word, if_neg (by rw [y3]; omega), a1 hn]
      · intro hh
        have hh' : i % 4 = 0 ∧ i + 4 ≤ b.length := hh
        obtain ⟨f1, f2, f3, f4⟩ := a2 hh
        have hw : (StreamText.setBlock y 0)[i]? = some (U32.setOctet (y[i]'(by omega)) 2 0) := by
          rw [StreamText.setBlock_word, if_pos (by rw [y3]; omega), xy]; rfl
        have g : ∀ w : BitVec 32, field (U32.setOctet w 2 0) 0 4 = field w 0 4 ∧
            field (U32.setOctet w 2 0) 24 8 = field w 24 8 ∧
            field (U32.setOctet w 2 0) 16 8 = 0 ∧
            field (U32.setOctet w 2 0) 6 10 = field w 6 10 ∧
            field (U32.setOctet w 2 0) 4 2 = field w 4 2 := by
          intro w
          rw [U32.setOctet_eq]
          exact ⟨field_ins_ne _ _ _ (by omega), field_ins_ne _ _ _ (by omega),
            field_ins_same (pos := 16) w (0 : BitVec 8) (by omega),
            field_ins_ne _ _ _ (by omega), field_ins_ne _ _ _ (by omega)⟩
        obtain ⟨g1, g2, g3, g4, g5⟩ := g (y[i]'(by omega))
        rw [fieldAt_ext xy] at f1 f2 f3 f4
        rw [fieldAt_ext xb] at f1 f2
        rw [fieldAt_ext hw, fieldAt_ext hw, fieldAt_ext hw, fieldAt_ext hw, fieldAt_ext hw, g1, g2,
          g3, g4, g5, fieldAt_ext xb, f1, f3, f4, h1]
        refine ⟨rfl, ?_, rfl, rfl, rfl⟩
        rw [fieldAt_ext xb]
        have := congrArg (fun o => o.map (· % 2 ^ 8)) f2
        have hm : ∀ w : BitVec 32, field w 16 16 % 2 ^ 8 = field w 24 8 := by
          intro w
          unfold field
          omega
        simp only [Option.map_some, hm] at this
        exact this
    · rw [if_neg h1] at hx
      subst hx
      refine ⟨a1, fun hh => ?_⟩
      obtain ⟨f1, f2, f3, f4⟩ := a2 hh
      have hq : (t.offset == 1) = false := by simp [h1]
      rw [hq]
      rw [fieldAt_ext xy, fieldAt_ext xb] at f2
      have f2 := Option.some.inj f2
      refine ⟨f1, ?_, ?_, f3, f4⟩
      · rw [fieldAt_ext xy, fieldAt_ext xb]
        congr 1
        unfold field at f2 ⊢
        omega
      · rw [fieldAt_ext xy]
        show _ = fieldAt b i 16 8
        rw [fieldAt_ext xb]
        congr 1
        unfold field at f2 ⊢
        omega
  · rw [if_pos h1] at hx
    subst hx
    rw [StreamText.setBlock_block, if_pos (by rw [y3]; exact hj)]

end Midi2
