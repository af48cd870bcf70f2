import Verif.Props.Derived
import Verif.Props.Lens
import Verif.Props.BytesExact

/-!
# C56: what a cleared note attribute leaves behind
-/

namespace Midi2

theorem low_word {x y : BitVec 32} (h : x &&& 0x0000FFFF#32 = y &&& 0x0000FFFF#32) :
    field x 16 16 = field y 16 16 := by
  have := congrArg BitVec.toNat h
  simp only [BitVec.toNat_and] at this
  rw [show (0x0000FFFF#32).toNat = 2 ^ 16 - 1 by decide, Nat.and_two_pow_sub_one_eq_mod,
    Nat.and_two_pow_sub_one_eq_mod] at this
  simpa [field] using this

/-- Clearing an attribute leaves its data alone. -/
theorem attribute_cleared {b b' : Buf .ump} (hw : Fld.write .ump .noteAttribute b none = .ok b') :
    fieldAt b' 1 16 16 = fieldAt b 1 16 16 := by
  have hw : (modifyAt b 0 (fun w => U32.setOctet w 3 0x0) >>= fun y =>
    sliceTo y 2 >>= fun _ => Res.ok y) = .ok b' := hw
  obtain ⟨h0, hw⟩ := modifyAt_bind hw
  have : b.set 0 (U32.setOctet b[0] 3 0x0) = b' := by
    generalize b.set 0 (U32.setOctet b[0] 3 0x0) = y at hw
    cases e : sliceTo y 2 with
    | ok z => rw [e] at hw; exact Res.ok.inj hw
    | err _ => rw [e] at hw; cases hw
    | panic => rw [e] at hw; cases hw
  rw [← this]
  simp [fieldAt]

/-- What one call leaves in the data of the note attribute. -/
theorem attribute_step {d : MsgDesc} (hd : d ∈ Msg.all)
    (hatt : ("attribute", Fld.noteAttribute) ∈ d.props) {b b' : Buf .ump}
    (hb : d.umpSize ≤ b.length) {c : SetCall} (hc : c.legal d .ump)
    (hw : c.fld.write .ump b c.val = .ok b') :
    fieldAt b' 1 16 16 = (match c.attributeData with
      | some x => some x.toNat
      | none => fieldAt b 1 16 16) := by
  have hg := good_ump hd hb
  have hn := of_decide_eq_true (List.all_eq_true.mp table_names d hd)
  obtain ⟨b1, g1, g2, g3, g4, _⟩ := setter_step hg hn hc.1 hc.2.1 c.val hc.2.2
  have : b1 = b' := Res.ok.inj (g1.symm.trans hw)
  subst this
  have hfit := MsgDesc.fits_mem (List.all_eq_true.mp table_ump_fits d hd) hatt
  simp only [Fld.fits, Bool.and_eq_true, decide_eq_true_eq] at hfit
  have h2 : 2 ≤ b.length := Nat.le_trans (Nat.le_trans (by decide) hfit.2) hb
  obtain ⟨n, f, v⟩ := c
  have hother : f ≠ .noteAttribute → fieldAt b1 1 16 16 = fieldAt b 1 16 16 := by
    intro hf
    have hne : n ≠ "attribute" := by
      intro e
      subst e
      exact hf (eq_of_nodup_map hn hc.1 hatt)
    have hon := Fld.sameOn_of_sep (MsgDesc.separated_mem hg.1 hc.1 hatt hne hc.2.1) g3
    have := hon.2 1 (by omega) (by omega)
    rw [fieldAt_ok (by omega : 1 < b1.length), fieldAt_ok (by omega : 1 < b.length)]
    congr 1
    refine low_word (Eq.symm ?_)
    have hm : Fld.bits .noteAttribute .ump 1 = 0x0000FFFF#32 := by decide
    rw [hm] at this
    exact this
  have hsome : ∀ x : BitVec 16, ∀ code, f = .noteAttribute →
      (∀ b : Buf .ump, ∀ k, f.Denotes k v → k = code * 65536 + x.toNat) →
      fieldAt b1 1 16 16 = some x.toNat := by
    rintro x code rfl hden
    obtain ⟨k, e1, e2⟩ := Fld.read32_value .noteAttribute rfl
      (by rw [g2]; exact Nat.le_trans (by decide) h2) g4
    have := hden b1 k e2
    simp only [Fld.pieces, valueOf, Option.bind_eq_bind] at e1
    rw [fieldAt_ok (by omega : 0 < b1.length), fieldAt_ok (by omega : 1 < b1.length)] at e1
    simp only [Option.bind_some, Option.some.injEq] at e1
    rw [fieldAt_ok (by omega : 1 < b1.length)]
    have h1 := field_lt b1[1] 16 16
    have h2 := x.isLt
    congr 1
    omega
  cases f
  case noteAttribute =>
    match v with
    | none =>
      exact attribute_cleared hw
    | some (.manufacturerSpecific x) => exact hsome x 1 rfl fun _ _ h => h
    | some (.profileSpecific x) => exact hsome x 2 rfl fun _ _ h => h
    | some (.pitch7_9 x) => exact hsome x 3 rfl fun _ _ h => h
  all_goals exact hother (by simp)

/-- What a history leaves in the data of the note attribute. -/
theorem attribute_left {d : MsgDesc} (hd : d ∈ Msg.all)
    (hatt : ("attribute", Fld.noteAttribute) ∈ d.props) {b : Buf .ump}
    (hb : d.umpSize ≤ b.length) (l : List SetCall) (hl : ∀ c ∈ l, c.legal d .ump) {x : Buf .ump}
    (hx : runSetters .ump l.reverse b = .ok x) :
    fieldAt x 1 16 16 = (match l.findSome? SetCall.attributeData with
      | some x => some x.toNat
      | none => fieldAt b 1 16 16) := by
  induction l generalizing x with
  | nil => cases hx; rfl
  | cons c l ih =>
    have hn := of_decide_eq_true (List.all_eq_true.mp table_names d hd)
    rw [List.reverse_cons, runSetters_append] at hx
    obtain ⟨y, ey, el, _⟩ := setter_history hn l.reverse (good_ump hd hb)
      (by intro c h; exact hl c (List.mem_cons_of_mem _ (by simpa using h)))
    rw [ey] at hx
    have hx : (c.fld.write .ump y c.val >>= fun z => Res.ok z) = .ok x := hx
    have hw : c.fld.write .ump y c.val = .ok x := by
      cases e : c.fld.write .ump y c.val with
      | ok z => rw [e] at hx; exact hx
      | err _ => rw [e] at hx; cases hx
      | panic => rw [e] at hx; cases hx
    have h1 := ih (fun c h => hl c (List.mem_cons_of_mem _ h)) ey
    have h2 := attribute_step hd hatt (by rw [el]; exact hb) (hl c List.mem_cons_self) hw
    rw [List.findSome?_cons]
    cases e : c.attributeData with
    | some z => rw [e] at h2; exact h2
    | none => rw [e] at h2; exact h2.trans h1

/-- The bits in which messages with a cleared attribute can differ. -/
theorem attribute_bits {x y : Buf .ump} (hl : x.length = y.length)
    (h0 : fieldAt x 0 24 8 = fieldAt y 0 24 8) (h1 : fieldAt x 1 16 16 = fieldAt y 1 16 16) :
    SameOn (Fld.bits .noteAttribute .ump) x y := by
  refine sameOn_of_fields (ps := [(0, 24, 8), (1, 16, 16)]) (by decide) hl ?_
  intro p hp
  simp only [List.mem_cons, List.not_mem_nil, or_false] at hp
  rcases hp with rfl | rfl
  · exact h0
  · exact h1

theorem attribute_absent {x : Buf .ump} (h2 : 2 ≤ x.length)
    (h : Fld.read .ump .noteAttribute x = .ok none) : fieldAt x 0 24 8 = some 0 := by
  obtain ⟨k, e1, e2⟩ := Fld.read32_value .noteAttribute rfl (Nat.le_trans (by decide) h2) h
  have e2 : k / 65536 = 0 := e2
  simp only [Fld.pieces, valueOf, Option.bind_eq_bind] at e1
  rw [fieldAt_ok (by omega : 0 < x.length), fieldAt_ok (by omega : 1 < x.length)] at e1
  simp only [Option.bind_some, Option.some.injEq] at e1
  rw [fieldAt_ok (by omega : 0 < x.length)]
  congr 1
  omega

/-- C56 (UMP): two histories of setter calls on the same message in which every property has the
same last call (or none) leave the same words, unless the last call of the note attribute cleared
it.  Then all bits but the 16 of the attribute's data are the same, and these are the data of the
last attribute that was set and not just cleared, or what they were before: the messages are equal
exactly if those are. -/
theorem C56_ump_last_call_wins_exactly {d : MsgDesc} (hd : d ∈ Msg.all) (b : Buf .ump)
    (hb : d.umpSize ≤ b.length) {cs cs' : List SetCall} (hc : ∀ c ∈ cs, c.legal d .ump)
    (hc' : ∀ c ∈ cs', c.legal d .ump) (hs : ∀ n, lastSet cs n = lastSet cs' n) :
    let left (cs : List SetCall) : Option Nat := match lastAttributeData cs with
      | some x => some x.toNat
      | none => fieldAt b 1 16 16
    ∃ x y, runSetters .ump cs b = .ok x ∧ runSetters .ump cs' b = .ok y ∧
      ((∀ n c, lastSet cs n = some c → c.clearsAttribute = false) → messageEq x y = true) ∧
      ((∃ n c, lastSet cs n = some c ∧ c.clearsAttribute = true) →
        fieldAt x 0 24 8 = some 0 ∧ fieldAt y 0 24 8 = some 0 ∧
        fieldAt x 1 16 16 = left cs ∧ fieldAt y 1 16 16 = left cs' ∧
        SameOff (fun i => if i = 1 then 0x0000FFFF#32 else 0#32) x y ∧
        (messageEq x y = true ↔ left cs = left cs')) := by
  intro left
  have hn := of_decide_eq_true (List.all_eq_true.mp table_names d hd)
  have hg := good_ump hd hb
  obtain ⟨x, y, ex, ey, hl, hbits⟩ := history_agree hn hg
    (fun _ h1 h2 _ _ _ _ l1 l2 w1 w2 =>
      write_sameOn_ump hd h1 h2 (by rw [l1]; exact hb) (l1.trans l2.symm) w1 w2) hc hc' hs
  refine ⟨x, y, ex, ey, ?_, ?_⟩
  · intro hna
    obtain ⟨z, e1, e2⟩ := C56_ump_last_call_wins_partial hd b hb hc hc' hs hna
    rw [ex] at e1; rw [ey] at e2
    cases e1; cases e2
    simp [messageEq]
  · rintro ⟨n, c, hlast, hclear⟩
    have hatt : n = "attribute" ∧ c = ⟨"attribute", .noteAttribute, none⟩ ∧
        ("attribute", Fld.noteAttribute) ∈ d.props := by
      obtain ⟨h1, h2, h3⟩ := find_name (l := cs.reverse) (c := c) (List.mem_of_find?_eq_some hlast)
      have hm : c ∈ cs := by simpa using List.mem_of_find?_eq_some hlast
      have hnm : (c.name == n) = true :=
        List.find?_some (p := fun y : SetCall => y.name == n) hlast
      have hp := (hc c hm).1
      obtain ⟨cn, cf, cv⟩ := c
      have hnm : cn = n := eq_of_beq hnm
      subst hnm
      cases cf <;> first | cases hclear | skip
      match cv with
      | none =>
        have htab : ∀ d ∈ Msg.all, ∀ p ∈ d.props, p.2 = .noteAttribute → p.1 = "attribute" := by
          decide +kernel
        have := htab d hd _ hp rfl
        have this : cn = "attribute" := this
        subst this
        exact ⟨rfl, rfl, hp⟩
    obtain ⟨rfl, rfl, hatt⟩ := hatt
    have hfit := MsgDesc.fits_mem (List.all_eq_true.mp table_ump_fits d hd) hatt
    simp only [Fld.fits, Bool.and_eq_true, decide_eq_true_eq] at hfit
    have h2 : 2 ≤ b.length := Nat.le_trans (Nat.le_trans (by decide) hfit.2) hb
    have hread : ∀ (cs : List SetCall) (z : Buf .ump), (∀ c ∈ cs, c.legal d .ump) →
        lastSet cs "attribute" = some ⟨"attribute", .noteAttribute, none⟩ →
        runSetters .ump cs b = .ok z → z.length = b.length ∧ fieldAt z 0 24 8 = some 0 := by
      intro cs z hc hlast ez
      obtain ⟨z', e1, e2, _, e3, _⟩ := setter_history hn cs hg hc
      rw [ez] at e1
      cases e1
      obtain ⟨_, _, pre, post, hcs, hpost⟩ := lastSet_split hlast
      exact ⟨e2, attribute_absent (by omega) (e3 pre _ _ _ post hcs hpost)⟩
    obtain ⟨lx, fx⟩ := hread cs x hc hlast ex
    obtain ⟨ly, fy⟩ := hread cs' y hc' ((hs _).symm.trans hlast) ey
    have ax : fieldAt x 1 16 16 = left cs :=
      attribute_left hd hatt hb cs.reverse (by simpa using hc) (by simpa using ex)
    have ay : fieldAt y 1 16 16 = left cs' :=
      attribute_left hd hatt hb cs'.reverse (by simpa using hc') (by simpa using ey)
    have hoff : SameOff (Fld.bits .noteAttribute .ump) x y := by
      refine ⟨hl, fun i hi hi' => ?_⟩
      apply BitVec.eq_of_getLsbD_eq
      intro t ht
      simp only [BitVec.getLsbD_and, BitVec.getLsbD_not, ht, decide_true, Bool.true_and]
      cases hm : (Fld.bits .noteAttribute .ump i).getLsbD t with
      | true => simp
      | false =>
        rw [hbits i hi hi' t ht]
        intro n' z hz hcl
        have hzm : z ∈ cs := by simpa using List.mem_of_find?_eq_some hz
        obtain ⟨zn, zf, zv⟩ := z
        cases zf <;> first | cases hcl | skip
        exact hm
    refine ⟨fx, fy, ax, ay, ⟨hl, fun i hi hi' => ?_⟩, ?_⟩
    · by_cases h1 : i = 1
      · subst h1
        have := hoff.2 1 hi hi'
        have hm : Fld.bits .noteAttribute .ump 1 = 0x0000FFFF#32 := by decide
        rw [hm] at this
        exact this
      · have hon : x[i] = y[i] := by
          by_cases h0 : i = 0
          · subst h0
            have h := hoff.2 0 hi hi'
            have hm : Fld.bits .noteAttribute .ump 0 = 0x000000FF#32 := by decide
            rw [hm] at h
            rw [fieldAt_ok hi] at fx
            rw [fieldAt_ok hi'] at fy
            have hf : field x[0] 24 8 = field y[0] 24 8 := Option.some.inj (fx.trans fy.symm)
            apply BitVec.eq_of_getLsbD_eq
            intro t ht
            have ht : t < 32 := ht
            by_cases h8 : t < 8
            · exact field_bit hf (by omega) (by omega)
            · have := congrArg (fun q : BitVec 32 => q.getLsbD t) h
              have hmt : (0x000000FF#32).getLsbD t = false := by
                have : ∀ t < 32, 8 ≤ t → (0x000000FF#32).getLsbD t = false := by decide
                exact this t ht (by omega)
              simp only [BitVec.getLsbD_and, BitVec.getLsbD_not, ht, decide_true, hmt] at this
              simpa using this
          · have h := hoff.2 i hi hi'
            have hm : Fld.bits .noteAttribute .ump i = 0#32 := by
              match i, h0, h1 with
              | i + 2, _, _ =>
                show UmpSchema.at _ (i + 2) = 0#32
                unfold UmpSchema.at
                split <;> first | omega | rfl
            rw [hm, show ~~~(0#32) = BitVec.allOnes 32 by decide, BitVec.and_allOnes,
              BitVec.and_allOnes] at h
            exact h
        rw [hon]
    · rw [← ax, ← ay]
      simp only [messageEq, beq_iff_eq]
      constructor
      · rintro rfl; rfl
      · intro h
        exact eq_of_same (attribute_bits hl (fx.trans fy.symm) h) hoff

/-- Setting an attribute, clearing it and setting the velocity leaves the attribute's data. -/
example :
    let att (v : Option Attribute) : SetCall := ⟨"attribute", .noteAttribute, v⟩
    let vel (v : BitVec 16) : SetCall := ⟨"velocity", .schema .u16 ⟨0, 0xFFFF0000, 0, 0⟩, v⟩
    let cs := [att (some (.pitch7_9 0x1234)), att none, vel 0x8000]
    let cs' := [vel 0x8000, att none]
    (∀ c ∈ cs, c.legal Msg.cv2NoteOn .ump) ∧ (∀ c ∈ cs', c.legal Msg.cv2NoteOn .ump) ∧
    (∀ n, lastSet cs n = lastSet cs' n) ∧ lastAttributeData cs = some 0x1234 ∧
    lastAttributeData cs' = none ∧
    runSetters .ump cs [0x40900000, 0] = .ok [0x40900000, 0x80001234] ∧
    runSetters .ump cs' [0x40900000, 0] = .ok [0x40900000, 0x80000000] := by
  intro att vel cs cs'
  refine ⟨?_, ?_, ?_, rfl, rfl, by simp only [cs, att, vel]; decide +kernel,
    by simp only [cs', att, vel]; decide +kernel⟩
  · intro c hc
    simp only [cs, List.mem_cons, List.not_mem_nil, or_false] at hc
    rcases hc with rfl | rfl | rfl <;> exact ⟨by simp [Msg.cv2NoteOn, att, vel], by decide, rfl⟩
  · intro c hc
    simp only [cs', List.mem_cons, List.not_mem_nil, or_false] at hc
    rcases hc with rfl | rfl <;> exact ⟨by simp [Msg.cv2NoteOn, att, vel], by decide, rfl⟩
  · intro n
    by_cases h1 : "attribute" = n
    · subst h1; rfl
    · by_cases h2 : "velocity" = n
      · subst h2; rfl
      · simp [lastSet, cs, cs', att, vel, h1, h2]

/-! ## Writing back what was read -/

theorem read_controller {b : Buf .ump} {v : Controller} (h : Fld.read .ump .controller b = .ok v) :
    Controller.faithful v = true ∨ ∃ x, v = .effectDepth 5 x := by
  have h : (at' b 0 >>= fun w => at' b 1 >>= fun x =>
    Controller.fromIndexAndData (U32.octet w 3) x) = .ok v := h
  cases e0 : at' b 0 with
  | err _ => rw [e0] at h; cases h
  | panic => rw [e0] at h; cases h
  | ok w =>
    cases e1 : at' b 1 with
    | err _ => rw [e0, e1] at h; cases h
    | panic => rw [e0, e1] at h; cases h
    | ok x =>
      rw [e0, e1, Res.ok_bind, Res.ok_bind] at h
      unfold Controller.fromIndexAndData at h
      split at h <;> cases h <;> first | exact .inl rfl | exact .inl (by decide) | exact .inr ⟨_, rfl⟩

theorem read_key {b : Buf .ump} {v : KeySharpsFlats} (h : Fld.read .ump .keySharpsFlats b = .ok v) :
    KeySharpsFlats.faithful v = true := by
  obtain ⟨hl, h⟩ := at'_inv h
  cases h
  have : ∀ n : BitVec 4, KeySharpsFlats.faithful (KeySharpsFlats.fromNibble n) = true := by decide
  exact this _

/-- C56 (UMP): writing back what was read changes nothing exactly if the message has the value in
the one form the setter writes. -/
theorem C56_ump_write_back_exactly {d : MsgDesc} (hd : d ∈ Msg.all) :
    ∃ l ∈ Layout.ump, l.name = d.name ∧
      ∀ n ps, (n, ps) ∈ l.props → ∀ f, (n, f) ∈ d.props → ∀ (b : Buf .ump) v,
        d.umpSize ≤ b.length → f.read .ump b = .ok v →
        (f.write .ump b v = .ok b ↔ f.Settled b ps v) := by
  have ht := List.all_eq_true.mp table_layout d hd
  cases e : layoutOf Layout.ump d with
  | none => rw [e] at ht; cases ht
  | some l =>
    rw [e] at ht
    have ht := of_decide_eq_true ht
    obtain ⟨h1, h2⟩ := layoutOf_mem e
    refine ⟨l, h1, h2, ?_⟩
    intro n ps hps f hf b v hb hr
    rw [ht, List.mem_map] at hps
    obtain ⟨⟨n', g⟩, hg, eg⟩ := hps
    rw [List.mem_filter] at hg
    simp only [Prod.mk.injEq] at eg
    obtain ⟨rfl, rfl⟩ := eg
    have hn := of_decide_eq_true (List.all_eq_true.mp table_names d hd)
    have := eq_of_nodup_map hn hf hg.1
    subst this
    have ha : f.accessible .ump = true := hg.2
    have hfit := MsgDesc.fits_mem (List.all_eq_true.mp table_ump_fits d hd) hf
    have hfit' := hfit
    simp only [Fld.fits, Bool.and_eq_true, decide_eq_true_eq] at hfit'
    have hneed : f.umpBits.need ≤ b.length := Nat.le_trans hfit'.2 hb
    -- a value the setter stores
    have store : f.faithful v = true → ∃ b', f.write .ump b v = .ok b' ∧
        SameOff (f.bits .ump) b b' := by
      intro hv
      obtain ⟨b', e1, e2, _⟩ := Fld.write_law ha hfit hb v hv
      exact ⟨b', e1, e2⟩
    have same : ∀ b', SameOff (f.bits .ump) b b' →
        (∀ p ∈ f.wide, fieldAt b p.1 p.2.1 p.2.2 = fieldAt b' p.1 p.2.1 p.2.2) → b' = b := by
      intro b' e2 hp
      have hw := List.all_eq_true.mp (List.all_eq_true.mp table_within d hd) _ hf
      rw [show (n', f).2.accessible .ump = true from ha] at hw
      exact (eq_of_same (sameOn_of_fields hw e2.1 hp) e2).symm
    have hdef : f ≠ .programBank → f.definite v = true → f.faithful v = true →
        f.write .ump b v = .ok b := fun hp hde hv =>
      C56_ump_write_back_partial hd b hb hf ha hr hv hde fun h => absurd h hp
    cases f
    case programBank =>
      match v with
      | some v =>
        constructor
        · intro hw
          obtain ⟨_, a1, a2⟩ := bank_some hw
          exact ⟨top_bit (by omega) a1, top_bit (by omega) a2⟩
        · intro hs
          exact C56_ump_write_back_partial hd b hb hf ha hr rfl rfl fun _ => hs
      | none =>
        constructor
        · intro hw
          exact (bank_none hw).2
        · intro hs
          obtain ⟨b', e1, e2⟩ := store rfl
          obtain ⟨a1, a2, a3⟩ := bank_none e1
          rw [e1, same b' e2]
          intro p hp
          simp only [Fld.wide, List.mem_cons, List.not_mem_nil, or_false] at hp
          rcases hp with rfl | rfl | rfl
          · refine Eq.trans ?_ a1.symm
            obtain ⟨k, k1, k2⟩ := Fld.read32_value .programBank rfl hneed hr
            have k2 : k / 16384 = 0 := k2
            have h2 : 2 ≤ b.length := Nat.le_trans (by decide) hneed
            simp only [Fld.pieces, valueOf, Option.bind_eq_bind] at k1
            rw [fieldAt_ok (by omega : 0 < b.length), fieldAt_ok (by omega : 1 < b.length),
              fieldAt_ok (by omega : 1 < b.length)] at k1
            simp only [Option.bind_some, Option.some.injEq] at k1
            show fieldAt b 0 31 1 = _
            rw [fieldAt_ok (by omega : 0 < b.length)]
            congr 1
            omega
          · exact hs.1.trans a2.symm
          · exact hs.2.trans a3.symm
    case flexOptionalChannel =>
      match v with
      | some v => exact ⟨fun _ => trivial, fun _ => hdef (by simp) rfl rfl⟩
      | none =>
        constructor
        · intro hw
          exact channel_none hw
        · intro hs
          obtain ⟨b', e1, e2⟩ := store rfl
          obtain ⟨a1, a2⟩ := channel_none e1
          rw [e1, same b' e2]
          intro p hp
          simp only [Fld.wide, Fld.pieces, List.mem_cons, List.not_mem_nil, or_false] at hp
          rcases hp with rfl | rfl
          · exact hs.1.trans a1.symm
          · exact hs.2.trans a2.symm
    case alteration s =>
      match v with
      | some v => exact ⟨fun _ => trivial, fun _ => hdef (by simp) rfl rfl⟩
      | none =>
        obtain ⟨⟨i, j⟩, hi, _⟩ := implOf_inv hr
        have hpc : (Fld.alteration s).pieces = [(i, 8 * j, 8)] := by simp only [Fld.pieces, hi]
        have hval : valueOf b (Fld.alteration s).pieces 0 = some 0 ↔
            fieldAt b i (8 * j) 8 = some 0 := by
          rw [hpc]
          simp only [valueOf, Option.bind_eq_bind]
          cases fieldAt b i (8 * j) 8 <;> simp
        show _ ↔ valueOf b (Fld.alteration s).pieces 0 = some 0
        rw [hval]
        constructor
        · intro hw
          exact alteration_any hw (i, 8 * j, 8) (by rw [hpc]; exact List.mem_singleton.mpr rfl)
        · intro hs
          obtain ⟨b', e1, e2⟩ := store rfl
          rw [e1, same b' e2]
          intro p hp
          have hp : p ∈ (Fld.alteration s).pieces := hp
          have := alteration_any e1 p hp
          rw [hpc, List.mem_singleton] at hp
          subst hp
          exact hs.trans this.symm
    case noteAttribute =>
      match v with
      | some v => exact ⟨fun _ => trivial, fun _ => hdef (by simp) (by cases v <;> rfl) rfl⟩
      | none =>
        refine ⟨fun _ => trivial, fun _ => ?_⟩
        obtain ⟨b', e1, e2, e3, _⟩ := Fld.write_law ha hfit hb none rfl
        have h2 : 2 ≤ b.length := Nat.le_trans (by decide) hneed
        rw [e1, same b' e2]
        intro p hp
        simp only [Fld.wide, Fld.pieces, List.mem_cons, List.not_mem_nil, or_false] at hp
        rcases hp with rfl | rfl
        · exact (attribute_absent h2 hr).trans (attribute_absent (by rw [← e2.1]; exact h2) e3).symm
        · exact (attribute_cleared e1).symm
    case controller =>
      constructor
      · intro hw x hx
        have hx : v = .effectDepth 5 x := hx
        subst hx
        cases hw
      · intro hs
        refine hdef (by simp) rfl ?_
        rcases read_controller hr with h | ⟨x, h⟩
        · exact h
        · exact absurd h (hs x)
    case keySharpsFlats =>
      exact ⟨fun _ => trivial, fun _ => hdef (by simp) rfl (read_key hr)⟩
    all_goals first
      | exact absurd (show false = true from ha) (by decide)
      | exact ⟨fun _ => trivial, fun _ => hdef (by simp) rfl rfl⟩

/-- A chord whose first alteration is absent but has a degree, 5: the getter says `None`, and
writing that back clears the degree. -/
example :
    let b : Buf .ump := [0xD0100006, 0x13010500, 0, 0]
    let f : Fld := .alteration ⟨0, 0x0000FF00, 0, 0⟩
    Msg.flexSetChordName.tryFrom .ump b = .ok b ∧ ("chord_alteration1", f) ∈ Msg.flexSetChordName.props ∧
    f.read .ump b = .ok none ∧ ¬ f.Settled b [(1, 16, 8)] none ∧
    f.write .ump b none = .ok [0xD0100006, 0x13010000, 0, 0] := by
  intro b f
  refine ⟨by decide +kernel, by simp [Msg.flexSetChordName, f], by decide +kernel, ?_,
    by decide +kernel⟩
  show ¬ valueOf b [(1, 16, 8)] 0 = some 0
  decide

/-- C56 (bytes): histories with the same last calls leave the same bytes, except that every call
on a song position pointer of two bytes panics. -/
theorem C56_bytes_last_call_wins_exactly {d : MsgDesc} (hd : d ∈ Msg.hybridAll) (b : Buf .bytes)
    (hok : d.tryFrom .bytes b = .ok b) {cs cs' : List SetCall} (hc : ∀ c ∈ cs, c.legal d .bytes)
    (hc' : ∀ c ∈ cs', c.legal d .bytes) (hs : ∀ n, lastSet cs n = lastSet cs' n) :
    (ShortPointer d b ∧ cs ≠ [] →
      runSetters .bytes cs b = .panic ∧ runSetters .bytes cs' b = .panic) ∧
    (¬ (ShortPointer d b ∧ cs ≠ []) →
      ∃ b', runSetters .bytes cs b = .ok b' ∧ runSetters .bytes cs' b = .ok b') := by
  have hne : ∀ {cs cs' : List SetCall}, (∀ n, lastSet cs n = lastSet cs' n) → cs' = [] → cs = [] := by
    rintro cs _ hs rfl
    cases cs with
    | nil => rfl
    | cons c cs =>
      obtain ⟨x, h1, _⟩ := find_name (l := (c :: cs).reverse) (c := c) (by simp)
      have := (hs c.name).symm.trans h1
      cases this
  refine ⟨fun ⟨h, hcs⟩ => ⟨?_, ?_⟩, fun h => ?_⟩
  · exact (C09_bytes_history_exactly hd b hok cs hc).1 ⟨h, hcs⟩
  · exact (C09_bytes_history_exactly hd b hok cs' hc').1 ⟨h, fun e => hcs (hne hs e)⟩
  · by_cases hsp : d.name = "system_common::SongPositionPointer" ∧ b.length = 2
    · have hcs : cs = [] := Classical.byContradiction fun e => h ⟨hsp, e⟩
      have hcs' : cs' = [] := hne (fun n => (hs n).symm) hcs
      subst hcs; subst hcs'
      exact ⟨b, rfl, rfl⟩
    · refine C56_bytes_last_call_wins_partial hd b hok (fun hn => ?_) hc hc' hs
      have hl := ((tryFrom_iff d .bytes b).mp hok).1
      have : ∀ d ∈ Msg.hybridAll, d.name = "system_common::SongPositionPointer" →
          d.minSize .bytes = 2 := by decide +kernel
      have := this d hd hn
      have : b.length ≠ 2 := fun e => hsp ⟨hn, e⟩
      omega

example :
    let pos (v : BitVec 14) : SetCall :=
      ⟨"position", .hybrid .u14 ⟨0, 0x7F, 0x7F⟩ ⟨0x00007F7F, 0, 0, 0⟩, v⟩
    runSetters .bytes [pos 1, pos 2] [0xF2, 5] = .panic ∧ runSetters .bytes [pos 2] [0xF2, 5] = .panic := by
  intro pos
  have hn : ∀ v, (pos v).legal Msg.sysSongPositionPointer .bytes :=
    fun v => ⟨by simp [Msg.sysSongPositionPointer, pos], rfl, rfl⟩
  refine (C56_bytes_last_call_wins_exactly (d := Msg.sysSongPositionPointer) (by decide +kernel) [0xF2, 5]
    (by decide +kernel) ?_ ?_ ?_).1 ⟨by unfold ShortPointer; decide +kernel, List.cons_ne_nil _ _⟩
  · intro c hc
    simp only [List.mem_cons, List.not_mem_nil, or_false] at hc
    rcases hc with rfl | rfl <;> exact hn _
  · intro c hc
    obtain rfl := List.mem_singleton.mp hc
    exact hn _
  · intro n
    by_cases h : "position" = n
    · subst h; rfl
    · simp [lastSet, pos, h]

end Midi2
