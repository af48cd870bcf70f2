import Verif.Lemmas.Convert
import Verif.Lemmas.Layout
import Verif.Spec.Lens

/-! What a getter returns determines the bits it is read from. -/

namespace Midi2

theorem pow2_pos (n : Nat) : 0 < 2 ^ n := Nat.two_pow_pos n

theorem valueOf_inj {b c : List (BitVec 32)} {k : Nat} :
    ∀ {ps : List (Nat × Nat × Nat)} {x y : Nat}, valueOf b ps x = some k → valueOf c ps y = some k →
      x = y ∧ ∀ p ∈ ps, fieldAt b p.1 p.2.1 p.2.2 = fieldAt c p.1 p.2.1 p.2.2
  | [], x, y, h, h' => by
    cases h; cases h'
    exact ⟨rfl, fun _ h => nomatch h⟩
  | (w, p, n) :: ps, x, y, h, h' => by
    unfold valueOf at h h'
    cases e : fieldAt b w p n with
    | none => rw [e] at h; cases h
    | some u =>
      cases e' : fieldAt c w p n with
      | none => rw [e'] at h'; cases h'
      | some u' =>
        rw [e] at h; rw [e'] at h'
        obtain ⟨h1, h2⟩ := valueOf_inj (ps := ps) (x := x * 2 ^ n + u) (y := y * 2 ^ n + u') h h'
        have hu : u < 2 ^ n := by
          unfold fieldAt field at e
          cases hb : b[w]? with
          | none => rw [hb] at e; cases e
          | some z =>
            rw [hb] at e; cases e
            exact Nat.mod_lt _ (pow2_pos n)
        have hu' : u' < 2 ^ n := by
          unfold fieldAt field at e'
          cases hb : c[w]? with
          | none => rw [hb] at e'; cases e'
          | some z =>
            rw [hb] at e'; cases e'
            exact Nat.mod_lt _ (pow2_pos n)
        have hx : x = y := by
          have := congrArg (· / 2 ^ n) h1
          simp only [Nat.mul_comm _ (2 ^ n), Nat.mul_add_div (pow2_pos n),
            Nat.div_eq_of_lt hu, Nat.div_eq_of_lt hu', Nat.add_zero] at this
          exact this
        subst hx
        have huu : u = u' := by omega
        refine ⟨rfl, fun q hq => ?_⟩
        rcases List.mem_cons.mp hq with rfl | hq
        · show fieldAt b w p n = fieldAt c w p n
          rw [e, e', huu]
        · exact h2 q hq

theorem fieldAt_lt {b : List (BitVec 32)} {i p n k : Nat} (h : fieldAt b i p n = some k) :
    k < 2 ^ n := by
  unfold fieldAt at h
  cases hb : b[i]? with
  | none => rw [hb] at h; cases h
  | some z => rw [hb] at h; cases h; exact field_lt _ _ _

/-- Each value has one code in the table. -/
theorem codes_unique {α : Type} [BEq α] [LawfulBEq α] {t : List (α × Nat)}
    (ht : (t.all fun x => t.all fun y => !(x.1 == y.1) || x.2 == y.2) = true) {v : α} {k k' : Nat}
    (h : (v, k) ∈ t) (h' : (v, k') ∈ t) : k = k' := by
  have := List.all_eq_true.mp (List.all_eq_true.mp ht _ h) _ h'
  simpa using this

/-- A definite value is denoted by one number. -/
theorem Fld.denotes_unique (f : Fld) (hc : f.isConst = false) {k k' : Nat} {v : f.Ty}
    (hv : f.definite v = true)
    (hk : f = .keySharpsFlats → k < 16 ∧ k' < 16) (h : f.Denotes k v) (h' : f.Denotes k' v) :
    k = k' := by
  cases f
  case umpType | cvStatus | sysStatus | flexStatus | flexBank | flexFormat | flexNoChannel | streamStatus | streamFormats =>
    cases hc
  case hybrid r _ _ | schema r _ =>
    have h : r.Denotes k v := h
    have h' : r.Denotes k' v := h'
    cases r
    case bool =>
      obtain ⟨a, b⟩ := h
      obtain ⟨a', b'⟩ := h'
      rw [a] at a'
      have : k = 1 ↔ k' = 1 := by simpa using a'
      omega
    all_goals exact Eq.trans h (Eq.symm h')
  case utilData | u20Data | controller => exact Eq.trans h (Eq.symm h')
  case noteAttribute =>
    match v with
    | none => cases hv
    | some (.manufacturerSpecific d) | some (.profileSpecific d) | some (.pitch7_9 d) =>
      exact Eq.trans h (Eq.symm h')
  case programBank =>
    match v with
    | none => cases hv
    | some _ => exact Eq.trans h (Eq.symm h')
  case flexOptionalChannel =>
    match v with
    | none => cases hv
    | some _ => exact Eq.trans h (Eq.symm h')
  case alteration =>
    match v with
    | none => cases hv
    | some _ => exact Eq.trans h (Eq.symm h')
  case keySharpsFlats =>
    obtain ⟨a, b⟩ := hk rfl
    have h : Codes.keySharpsFlats v = if k < 8 then (k : Int) else (k : Int) - 16 := h
    have h' : Codes.keySharpsFlats v = if k' < 8 then (k' : Int) else (k' : Int) - 16 := h'
    rw [h] at h'
    split at h' <;> split at h' <;> omega
  case tonic => exact codes_unique (t := Codes.tonic) (by decide +kernel) h h'
  case chordSharpsFlats => exact codes_unique (t := Codes.chordSharpsFlats) (by decide +kernel) h h'
  case chordType => exact codes_unique (t := Codes.chordType) (by decide +kernel) h h'
  case uiHint => exact codes_unique (t := Codes.uiHint) (by decide +kernel) h h'
  case midi1Port => exact codes_unique (t := Codes.midi1Port) (by decide +kernel) h h'
  case direction => exact codes_unique (t := Codes.direction) (by decide +kernel) h h'

/-- Equal definite values come from equal fields. -/
theorem Fld.read_fields (f : Fld) (hc : f.isConst = false) {b c : List (BitVec 32)} {v : f.Ty}
    (hv : f.definite v = true) (hb : f.umpBits.need ≤ b.length) (hc' : f.umpBits.need ≤ c.length)
    (h : f.read32 b = .ok v) (h' : f.read32 c = .ok v) :
    ∀ p ∈ f.pieces, fieldAt b p.1 p.2.1 p.2.2 = fieldAt c p.1 p.2.1 p.2.2 := by
  obtain ⟨k, e, d⟩ := f.read32_value hc hb h
  obtain ⟨k', e', d'⟩ := f.read32_value hc hc' h'
  have hk : f = .keySharpsFlats → k < 16 ∧ k' < 16 := by
    rintro rfl
    simp only [pieces, valueOf, Option.bind_eq_bind] at e e'
    constructor
    · cases q : fieldAt b 1 0 4 with
      | none => rw [q] at e; cases e
      | some x => rw [q] at e; have := fieldAt_lt q; simp at e; omega
    · cases q : fieldAt c 1 0 4 with
      | none => rw [q] at e'; cases e'
      | some x => rw [q] at e'; have := fieldAt_lt q; simp at e'; omega
  have := f.denotes_unique hc hv hk d d'
  subst this
  exact (valueOf_inj e e').2

/-- The pieces contain every bit of the masks. -/
def within (ps : List (Nat × Nat × Nat)) (s : UmpSchema) : Bool :=
  (List.range 4).all fun i => (List.range 32).all fun t =>
    !(s.at i).getLsbD t || ps.any fun p => p.1 == i && decide (32 - p.2.1 - p.2.2 ≤ t) &&
      decide (t < 32 - p.2.1 - p.2.2 + p.2.2)

theorem field_bit {x y : BitVec 32} {p n t : Nat} (h : field x p n = field y p n)
    (h1 : 32 - p - n ≤ t) (h2 : t < 32 - p - n + n) : x.getLsbD t = y.getLsbD t := by
  unfold field at h
  rw [← toNat_ext, ← toNat_ext] at h
  have := congrArg (fun z => z.getLsbD (t - (32 - p - n))) (BitVec.eq_of_toNat_eq h)
  simp only [getLsbD_ext] at this
  rw [show 32 - p - n + (t - (32 - p - n)) = t by omega,
    show decide (t - (32 - p - n) < n) = true from decide_eq_true (by omega)] at this
  simpa using this

theorem sameOn_of_fields {ps : List (Nat × Nat × Nat)} {s : UmpSchema} (hw : within ps s = true)
    {b c : List (BitVec 32)} (hl : b.length = c.length)
    (h : ∀ p ∈ ps, fieldAt b p.1 p.2.1 p.2.2 = fieldAt c p.1 p.2.1 p.2.2) : SameOn s.at b c := by
  refine ⟨hl, fun i hi hi' => ?_⟩
  by_cases h4 : i < 4
  · apply BitVec.eq_of_getLsbD_eq
    intro t ht
    rw [BitVec.getLsbD_and, BitVec.getLsbD_and]
    cases hm : (s.at i).getLsbD t with
    | false => simp
    | true =>
      have := List.all_eq_true.mp (List.all_eq_true.mp hw i (List.mem_range.mpr h4)) t
        (List.mem_range.mpr ht)
      rw [hm, Bool.not_true, Bool.false_or, List.any_eq_true] at this
      obtain ⟨⟨w, p, n⟩, hp, hq⟩ := this
      simp only [Bool.and_eq_true, beq_iff_eq, decide_eq_true_eq] at hq
      obtain ⟨⟨rfl, h1⟩, h2⟩ := hq
      have := h _ hp
      simp only [fieldAt, List.getElem?_eq_getElem hi, List.getElem?_eq_getElem hi',
        Option.map_some, Option.some.injEq] at this
      rw [field_bit this h1 h2]
  · have : s.at i = 0 := by
      unfold UmpSchema.at
      split <;> first | omega | rfl
    rw [this]
    simp

/-- The fields a setter writes: those the getter reads, and for the bank whole octets. -/
def Fld.wide : Fld → List (Nat × Nat × Nat)
  | .programBank => [(0, 31, 1), (1, 16, 8), (1, 24, 8)]
  | f => f.pieces

theorem table_within : Msg.all.all (fun d => d.props.all fun p =>
    !p.2.accessible .ump || within p.2.wide p.2.umpBits) = true := by
  decide +kernel

theorem field_of_bit {w : BitVec 32} {i : Nat} (hi : i < 32) (b : Bool) (h : U32.bit w i = b) :
    field w i 1 = if b then 1 else 0 := by
  have := field_lt w i 1
  rw [bit_field w hi] at h
  cases b
  · have := of_decide_eq_false h
    simp; omega
  · simpa using h

theorem modifyAt_bind {α β : Type} {b : List α} {i : Nat} {g : α → α} {k : List α → Res β} {v : β}
    (h : (modifyAt b i g >>= k) = .ok v) : ∃ hi : i < b.length, k (b.set i (g b[i])) = .ok v := by
  by_cases hi : i < b.length
  · rw [modifyAt_ok g hi] at h; exact ⟨hi, h⟩
  · have : modifyAt b i g = .panic := by
      unfold modifyAt
      rw [List.getElem?_eq_none (Nat.le_of_not_lt hi)]
    rw [this] at h; cases h

theorem modifyAt_last {α : Type} {b b' : List α} {i : Nat} {g : α → α}
    (h : modifyAt b i g = .ok b') : ∃ hi : i < b.length, b.set i (g b[i]) = b' := by
  have : (modifyAt b i g >>= fun x => Res.ok x) = .ok b' := by rw [h]; rfl
  obtain ⟨hi, h⟩ := modifyAt_bind this
  exact ⟨hi, by cases h; rfl⟩

/-- What the setter of the bank leaves in the words. -/
theorem bank_some {b b' : List (BitVec 32)} {v : BitVec 14}
    (h : Fld.write32 .programBank b (some v) = .ok b') :
    fieldAt b' 0 31 1 = some 1 ∧
    fieldAt b' 1 16 8 = some ((u14ToU7s (BitVec 7) v).1.setWidth 8).toNat ∧
    fieldAt b' 1 24 8 = some ((u14ToU7s (BitVec 7) v).2.setWidth 8).toNat := by
  obtain ⟨h1, h⟩ := modifyAt_bind h
  obtain ⟨h2, h⟩ := modifyAt_bind h
  obtain ⟨h0, h⟩ := modifyAt_last h
  subst h
  simp only [List.length_set] at h0 h2
  refine ⟨?_, ?_, ?_⟩
  · rw [fieldAt_ok (by simpa using h0), field_of_bit (by omega) true]
    · rfl
    · simp only [List.getElem_set_self, U32.setBit_eq, U32.bit_eq]
      exact bit_ins_same _ _ _ (by omega)
  · rw [fieldAt_ok (by simpa using h1), ← octet_field (i := 2) _ (by omega)]
    simp only [List.getElem_set_self, List.getElem_set_ne (i := 0) (j := 1) (by omega),
      U32.setOctet_eq, U32.octet_eq]
    rw [ext_ins_disjoint _ _ _ _ (by omega), ext_ins_same _ _ _ (by omega)]
  · rw [fieldAt_ok (by simpa using h1), ← octet_field (i := 3) _ (by omega)]
    simp only [List.getElem_set_self, List.getElem_set_ne (i := 0) (j := 1) (by omega),
      U32.setOctet_eq, U32.octet_eq]
    rw [ext_ins_same _ _ _ (by omega)]

theorem bank_none {b b' : List (BitVec 32)}
    (h : Fld.write32 .programBank b none = .ok b') :
    fieldAt b' 0 31 1 = some 0 ∧ fieldAt b' 1 16 8 = some 0 ∧ fieldAt b' 1 24 8 = some 0 := by
  obtain ⟨h0, h⟩ := modifyAt_bind h
  obtain ⟨h1, h⟩ := modifyAt_last h
  subst h
  simp only [List.length_set] at h1
  have hz : ∀ (w : BitVec 32) p, 16 ≤ p → p + 8 ≤ 32 → field (ins w 0 0#16) p 8 = 0 := by
    intro w p hp hq
    unfold field
    rw [← toNat_ext]
    have : (ins w 0 0#16).extractLsb' (32 - p - 8) 8 = 0 := by
      apply BitVec.eq_of_getLsbD_eq
      intro k hk
      rw [getLsbD_ext, getLsbD_ins, if_pos (by omega)]
      simp
    rw [this]; rfl
  refine ⟨?_, ?_, ?_⟩
  · rw [fieldAt_ok (by simpa using h0), field_of_bit (by omega) false]
    · rfl
    · simp only [List.getElem_set_self, List.getElem_set_ne (i := 1) (j := 0) (by omega),
        U32.setBit_eq, U32.bit_eq]
      exact bit_ins_same _ _ _ (by omega)
  · rw [fieldAt_ok (by simpa using h1)]
    simp only [List.getElem_set_self, U32.setWord_eq]
    exact congrArg some (hz _ 16 (by omega) (by omega))
  · rw [fieldAt_ok (by simpa using h1)]
    simp only [List.getElem_set_self, U32.setWord_eq]
    exact congrArg some (hz _ 24 (by omega) (by omega))

theorem channel_none {b b' : List (BitVec 32)}
    (h : Fld.write32 .flexOptionalChannel b none = .ok b') :
    fieldAt b' 0 10 2 = some 1 ∧ fieldAt b' 0 12 4 = some 0 := by
  by_cases h0 : 0 < b.length
  · rw [show Fld.write32 .flexOptionalChannel b none = _ from (channel_write b h0 1 0).1] at h
    cases h
    constructor
    · rw [fieldAt_ok (by simpa using h0), ← crumb_field (i := 5) _ (by omega)]
      simp only [List.getElem_set_self, U32.crumb_eq]
      rw [ext_ins_disjoint _ _ _ _ (by omega), ext_ins_same _ _ _ (by omega)]; rfl
    · rw [fieldAt_ok (by simpa using h0), ← nibble_field (i := 3) _ (by omega)]
      simp only [List.getElem_set_self, U32.nibble_eq]
      rw [ext_ins_same _ _ _ (by omega)]; rfl
  · obtain ⟨h1, _⟩ := modifyAt_bind h
    exact absurd h1 h0

theorem alteration_any {s : UmpSchema} {b b' : List (BitVec 32)} {v : Option Alteration}
    (h : Fld.write32 (.alteration s) b v = .ok b') :
    ∀ p ∈ (Fld.alteration s).pieces,
      fieldAt b' p.1 p.2.1 p.2.2 = some (Alteration.intoOctet v).toNat := by
  obtain ⟨⟨i, j⟩, hi, h⟩ := implOf_inv h
  obtain ⟨h0, h⟩ := modifyAt_last h
  subst h
  obtain ⟨_, _, hj⟩ := alteration_covers hi
  intro p hp
  simp only [Fld.pieces, hi, List.mem_singleton] at hp
  subst hp
  show fieldAt _ i (8 * j) 8 = _
  rw [fieldAt_ok (by simpa using h0), ← octet_field (i := j) _ (by omega)]
  simp only [List.getElem_set_self, U32.setOctet_eq, U32.octet_eq]
  rw [ext_ins_same _ _ _ (by omega)]

/-- The setter writes the same fields into any buffer. -/
theorem Fld.write_fields (f : Fld) (ha : f.accessible .ump = true) (him : f.implemented = true)
    {v : f.Ty} (hv : f.faithful v = true)
    (hna : SetCall.clearsAttribute ⟨"", f, v⟩ = false)
    {b c b' c' : List (BitVec 32)} (hb : f.umpBits.need ≤ b.length) (hc : f.umpBits.need ≤ c.length)
    (h : f.write32 b v = .ok b') (h' : f.write32 c v = .ok c') :
    ∀ p ∈ f.wide, fieldAt b' p.1 p.2.1 p.2.2 = fieldAt c' p.1 p.2.1 p.2.2 := by
  have hcst : f.isConst = false := by
    simp only [accessible, Bool.and_eq_true, Bool.not_eq_true'] at ha
    exact ha.1
  have key : f.definite v = true → f.wide = f.pieces →
      ∀ p ∈ f.wide, fieldAt b' p.1 p.2.1 p.2.2 = fieldAt c' p.1 p.2.1 p.2.2 := by
    intro hd hw
    obtain ⟨x, e1, e2, e3, _⟩ := write32_law f (accessible_ranging ha) him hb v hv
    obtain ⟨y, g1, g2, g3, _⟩ := write32_law f (accessible_ranging ha) him hc v hv
    rw [h] at e1; rw [h'] at g1
    cases e1; cases g1
    rw [hw]
    exact f.read_fields hcst hd (by rw [← e2.1]; exact hb) (by rw [← g2.1]; exact hc) e3 g3
  cases f
  case programBank =>
    intro p hp
    simp only [wide, List.mem_cons, List.not_mem_nil, or_false] at hp
    match v with
    | some v =>
      obtain ⟨a1, a2, a3⟩ := bank_some h
      obtain ⟨d1, d2, d3⟩ := bank_some h'
      rcases hp with rfl | rfl | rfl
      · exact a1.trans d1.symm
      · exact a2.trans d2.symm
      · exact a3.trans d3.symm
    | none =>
      obtain ⟨a1, a2, a3⟩ := bank_none h
      obtain ⟨d1, d2, d3⟩ := bank_none h'
      rcases hp with rfl | rfl | rfl
      · exact a1.trans d1.symm
      · exact a2.trans d2.symm
      · exact a3.trans d3.symm
  case flexOptionalChannel =>
    match v with
    | some v => exact key rfl rfl
    | none =>
      intro p hp
      simp only [wide, pieces, List.mem_cons, List.not_mem_nil, or_false] at hp
      obtain ⟨a1, a2⟩ := channel_none h
      obtain ⟨d1, d2⟩ := channel_none h'
      rcases hp with rfl | rfl
      · exact a1.trans d1.symm
      · exact a2.trans d2.symm
  case alteration s =>
    intro p hp
    exact (alteration_any h p hp).trans (alteration_any h' p hp).symm
  case noteAttribute =>
    match v with
    | some (.manufacturerSpecific d) | some (.profileSpecific d) | some (.pitch7_9 d) =>
      exact key rfl rfl
    | none => cases hna
  all_goals exact key rfl rfl

theorem SameOn.trans {n : Nat} {m : Nat → BitVec n} {a b c : List (BitVec n)} (h : SameOn m a b)
    (h' : SameOn m b c) : SameOn m a c :=
  ⟨h.1.trans h'.1, fun i hi hi' => (h.2 i hi (h.1 ▸ hi)).trans (h'.2 i (h.1 ▸ hi) hi')⟩

theorem Agree.sameOn {n : Nat} {m : Nat → BitVec n} {a b : List (BitVec n)} (h : Agree m a b)
    (hl : a.length = b.length) : SameOn m a b := by
  refine ⟨hl, fun i hi hi' => ?_⟩
  by_cases hm : m i = 0
  · rw [hm]; simp
  · have := h i hm
    rw [List.getElem?_eq_getElem hi, List.getElem?_eq_getElem hi'] at this
    simpa using this

/-- Writing the same value into two buffers of the same length gives the same bits. -/
theorem write_sameOn_ump {d : MsgDesc} (hd : d ∈ Msg.all) {c : SetCall} (hc : c.legal d .ump)
    (hn : c.clearsAttribute = false) {x y x' y' : Buf .ump} (hx : d.umpSize ≤ x.length)
    (hl : x.length = y.length) (h : c.fld.write .ump x c.val = .ok x')
    (h' : c.fld.write .ump y c.val = .ok y') : SameOn (c.fld.bits .ump) x' y' := by
  obtain ⟨n, f, v⟩ := c
  obtain ⟨h1, h2, h3⟩ := hc
  have hfit := MsgDesc.fits_mem (List.all_eq_true.mp table_ump_fits d hd) h1
  obtain ⟨x1, e1, e2, _, _⟩ := Fld.write_law h2 hfit hx v h3
  obtain ⟨y1, g1, g2, _, _⟩ := Fld.write_law h2 hfit (hl ▸ hx) v h3
  have a1 : x1 = x' := Res.ok.inj (e1.symm.trans h)
  have a2 : y1 = y' := Res.ok.inj (g1.symm.trans h')
  subst a1; subst a2
  simp only [Fld.fits, Bool.and_eq_true, decide_eq_true_eq] at hfit
  have hw := List.all_eq_true.mp (List.all_eq_true.mp table_within d hd) _ h1
  rw [show (n, f).2.accessible .ump = true from h2] at hw
  refine sameOn_of_fields hw (by rw [← e2.1, ← g2.1]; exact hl) ?_
  refine f.write_fields h2 hfit.1 h3 ?_ (Nat.le_trans hfit.2 hx) (Nat.le_trans hfit.2 (hl ▸ hx)) h h'
  have hn : SetCall.clearsAttribute ⟨n, f, v⟩ = false := hn
  cases f
  case noteAttribute => cases v <;> first | rfl | exact hn
  all_goals rfl

theorem write_sameOn_bytes {d : MsgDesc} (hd : d ∈ Msg.hybridAll) {c : SetCall}
    (hc : c.legal d .bytes) {size : Nat} (hfit : c.fld.fits .bytes size = true)
    {x y x' y' : Buf .bytes} (hx : size ≤ x.length)
    (hl : x.length = y.length) (h : c.fld.write .bytes x c.val = .ok x')
    (h' : c.fld.write .bytes y c.val = .ok y') : SameOn (c.fld.bits .bytes) x' y' := by
  obtain ⟨n, f, v⟩ := c
  obtain ⟨h1, h2, h3⟩ := hc
  obtain ⟨x1, e1, e2, e3, e4⟩ := Fld.write_law h2 hfit hx v h3
  obtain ⟨y1, g1, g2, g3, g4⟩ := Fld.write_law h2 hfit (hl ▸ hx) v h3
  have a1 : x1 = x' := Res.ok.inj (e1.symm.trans h)
  have a2 : y1 = y' := Res.ok.inj (g1.symm.trans h')
  subst a1; subst a2
  have hdual := List.all_eq_true.mp (List.all_eq_true.mp table_dual d hd) _ h1
  exact (Fld.agree f hdual e3 g3 e4 g4).sameOn (by rw [← e2.1, ← g2.1]; exact hl)

theorem Fld.sameOn_of_sep {m : Fmt} {f g : Fld} (hs : f.sep m g = true) {b b' : Buf m}
    (h : SameOff (f.bits m) b b') : SameOn (g.bits m) b b' := by
  cases m with
  | ump => exact SameOff.on h fun i => (disjoint_at hs i).2
  | bytes => exact SameOff.on h fun i => disjoint8_at hs i

theorem runSetters_append (m : Fmt) (cs cs' : List SetCall) (b : Buf m) :
    runSetters m (cs ++ cs') b = runSetters m cs b >>= runSetters m cs' := by
  induction cs generalizing b with
  | nil => rfl
  | cons c cs ih =>
    show (c.fld.write m b c.val >>= runSetters m (cs ++ cs')) =
      (c.fld.write m b c.val >>= runSetters m cs) >>= runSetters m cs'
    cases c.fld.write m b c.val with
    | ok x => exact ih x
    | err _ => rfl
    | panic => rfl

/-- What a history (most recent call first) leaves in the buffer. -/
theorem history_bits {d : MsgDesc} {m : Fmt} (hn : (d.props.map (·.1)).Nodup) {b : Buf m}
    (hg : d.Good m b)
    (hdet : ∀ c : SetCall, c.legal d m → c.clearsAttribute = false → ∀ x y x' y' : Buf m,
      x.length = b.length → y.length = b.length → c.fld.write m x c.val = .ok x' →
      c.fld.write m y c.val = .ok y' → SameOn (c.fld.bits m) x' y')
    (l : List SetCall) (hl : ∀ c ∈ l, c.legal d m) :
    ∃ b', runSetters m l.reverse b = .ok b' ∧ b'.length = b.length ∧
      (∀ n c, l.find? (fun c => c.name == n) = some c → c.clearsAttribute = false →
        ∀ y y' : Buf m, y.length = b.length → c.fld.write m y c.val = .ok y' →
        SameOn (c.fld.bits m) y' b') ∧
      ∀ (i : Nat) (hi : i < b.length) (hi' : i < b'.length) (t : Nat),
        (∀ c ∈ l, (c.fld.bits m i).getLsbD t = false) → b[i].getLsbD t = b'[i].getLsbD t := by
  induction l with
  | nil => exact ⟨b, rfl, rfl, fun _ _ h => (nomatch h), fun _ _ _ _ _ => rfl⟩
  | cons c l ih =>
    obtain ⟨b1, e1, e2, e3, e4⟩ := ih fun c h => hl c (List.mem_cons_of_mem _ h)
    obtain ⟨h1, h2, h3⟩ := hl c List.mem_cons_self
    obtain ⟨b', g1, g2, g3, _, _, _⟩ := setter_step (hg.same e2.symm) hn h1 h2 c.val h3
    refine ⟨b', ?_, by rw [g2, e2], ?_, ?_⟩
    · rw [List.reverse_cons, runSetters_append, e1]
      show (c.fld.write m b1 c.val >>= fun x => Res.ok x) = _
      rw [g1]; rfl
    · intro n x hx hcl y y' hy hw
      rw [List.find?_cons] at hx
      split at hx
      · cases hx
        exact hdet c ⟨h1, h2, h3⟩ hcl y b1 y' b' hy e2 hw g1
      · next hne =>
        have hx1 : x ∈ l := List.mem_of_find?_eq_some hx
        have hx2 : (x.name == n) = true := by
          have := List.find?_some hx
          exact this
        have hx3 := (hl x (List.mem_cons_of_mem _ hx1)).1
        refine (e3 n x hx hcl y y' hy hw).trans ?_
        refine Fld.sameOn_of_sep (MsgDesc.separated_mem hg.1 h1 hx3 ?_ h2) g3
        intro e
        rw [e] at hne
        rw [hx2] at hne
        cases hne
    · intro i hi hi' t ht
      have h1i : i < b1.length := by omega
      rw [e4 i hi h1i t fun c h => ht c (List.mem_cons_of_mem _ h)]
      have := congrArg (fun z : BitVec m.w => z.getLsbD t) (g3.2 i h1i hi')
      by_cases htw : t < m.w
      · simpa only [BitVec.getLsbD_and, BitVec.getLsbD_not, ht c List.mem_cons_self, htw,
          decide_true, Bool.not_false, Bool.and_true, Bool.true_and] using this
      · rw [BitVec.getLsbD_of_ge _ _ (by omega), BitVec.getLsbD_of_ge _ _ (by omega)]

theorem find_name {l : List SetCall} {c : SetCall} (h : c ∈ l) :
    ∃ x, l.find? (fun y => y.name == c.name) = some x ∧ x ∈ l ∧ x.name = c.name := by
  cases e : l.find? (fun y => y.name == c.name) with
  | none =>
    have := List.find?_eq_none.mp e c h
    simp at this
  | some x =>
    have hx : (x.name == c.name) = true := List.find?_some (p := fun y : SetCall => y.name == c.name) e
    exact ⟨x, rfl, List.mem_of_find?_eq_some e, eq_of_beq hx⟩

/-- Histories with the same last calls leave the same bits, except those of a note attribute
cleared last. -/
theorem history_agree {d : MsgDesc} {m : Fmt} (hn : (d.props.map (·.1)).Nodup) {b : Buf m}
    (hg : d.Good m b)
    (hdet : ∀ c : SetCall, c.legal d m → c.clearsAttribute = false → ∀ x y x' y' : Buf m,
      x.length = b.length → y.length = b.length → c.fld.write m x c.val = .ok x' →
      c.fld.write m y c.val = .ok y' → SameOn (c.fld.bits m) x' y')
    {cs cs' : List SetCall} (hl : ∀ c ∈ cs, c.legal d m) (hl' : ∀ c ∈ cs', c.legal d m)
    (hs : ∀ n, lastSet cs n = lastSet cs' n) :
    ∃ x y, runSetters m cs b = .ok x ∧ runSetters m cs' b = .ok y ∧ x.length = y.length ∧
      ∀ (i : Nat) (hi : i < x.length) (hi' : i < y.length) (t : Nat), t < m.w →
        (∀ n z, lastSet cs n = some z → z.clearsAttribute = true →
          (z.fld.bits m i).getLsbD t = false) → x[i].getLsbD t = y[i].getLsbD t := by
  obtain ⟨x, e1, e2, e3, e4⟩ := history_bits hn hg hdet cs.reverse (by simpa using hl)
  obtain ⟨y, g1, g2, g3, g4⟩ := history_bits hn hg hdet cs'.reverse (by simpa using hl')
  rw [List.reverse_reverse] at e1 g1
  refine ⟨x, y, e1, g1, by rw [e2, g2], ?_⟩
  -- a call of one history has a last call, which the other history shares
  have shared : ∀ (l l' : List SetCall), (∀ c ∈ l, c.legal d m) →
      (∀ n, l.find? (fun c => c.name == n) = l'.find? (fun c => c.name == n)) → ∀ c ∈ l,
      ∃ z, l.find? (fun y => y.name == c.name) = some z ∧ z.fld = c.fld ∧ z ∈ l' := by
    intro l l' hl hs c hc
    obtain ⟨z, z1, z2, z3⟩ := find_name hc
    refine ⟨z, z1, ?_, List.mem_of_find?_eq_some ((hs _).symm.trans z1)⟩
    exact eq_of_nodup_map hn (z3 ▸ (hl z z2).1) (hl c hc).1
  intro i hi hi' t ht hna
  have hb : i < b.length := by omega
  by_cases hany : ∃ c ∈ cs.reverse, (c.fld.bits m i).getLsbD t = true
  · obtain ⟨c, hc, hbit⟩ := hany
    obtain ⟨z, z1, z2, z3⟩ := shared _ _ (by simpa using hl) hs c hc
    have hcl : z.clearsAttribute = false := by
      cases e : z.clearsAttribute with
      | false => rfl
      | true =>
        have := hna _ z z1 e
        rw [z2, hbit] at this
        cases this
    have hz := hl' z (by simpa using z3)
    obtain ⟨y', w1, _⟩ := setter_step hg hn hz.1 hz.2.1 z.val hz.2.2
    have a := (e3 _ z z1 hcl b y' rfl w1).symm.trans (g3 _ z ((hs _).symm.trans z1) hcl b y' rfl w1)
    rw [z2] at a
    have := congrArg (fun q : BitVec m.w => q.getLsbD t) (a.2 i hi hi')
    simpa only [BitVec.getLsbD_and, hbit, Bool.and_true] using this
  · have n1 : ∀ c ∈ cs.reverse, (c.fld.bits m i).getLsbD t = false := by
      intro c hc
      cases e : (c.fld.bits m i).getLsbD t with
      | false => rfl
      | true => exact absurd ⟨c, hc, e⟩ hany
    have n2 : ∀ c ∈ cs'.reverse, (c.fld.bits m i).getLsbD t = false := by
      intro c hc
      obtain ⟨z, z1, z2, z3⟩ := shared _ _ (by simpa using hl') (fun n => (hs n).symm) c hc
      rw [← z2]
      exact n1 z z3
    rw [← e4 i hb hi t n1, ← g4 i hb hi' t n2]

/-- Histories with the same last calls leave the same buffer. -/
theorem history_eq {d : MsgDesc} {m : Fmt} (hn : (d.props.map (·.1)).Nodup) {b : Buf m}
    (hg : d.Good m b)
    (hdet : ∀ c : SetCall, c.legal d m → c.clearsAttribute = false → ∀ x y x' y' : Buf m,
      x.length = b.length → y.length = b.length → c.fld.write m x c.val = .ok x' →
      c.fld.write m y c.val = .ok y' → SameOn (c.fld.bits m) x' y')
    {cs cs' : List SetCall} (hl : ∀ c ∈ cs, c.legal d m) (hl' : ∀ c ∈ cs', c.legal d m)
    (hs : ∀ n, lastSet cs n = lastSet cs' n)
    (hna : ∀ n c, lastSet cs n = some c → c.clearsAttribute = false) :
    ∃ b', runSetters m cs b = .ok b' ∧ runSetters m cs' b = .ok b' := by
  obtain ⟨x, y, e1, e2, e3, e4⟩ := history_agree hn hg hdet hl hl' hs
  suffices x = y from ⟨x, e1, this ▸ e2⟩
  apply List.ext_getElem e3
  intro i hi hi'
  apply BitVec.eq_of_getLsbD_eq
  intro t ht
  refine e4 i hi hi' t ht fun n z hz hc => ?_
  rw [hna n z hz] at hc
  cases hc

theorem eq_of_same {n : Nat} {m : Nat → BitVec n} {a b : List (BitVec n)} (h : SameOn m a b)
    (h' : SameOff m a b) : a = b := by
  apply List.ext_getElem h.1
  intro i hi hi'
  apply BitVec.eq_of_getLsbD_eq
  intro t ht
  have e := congrArg (fun z : BitVec n => z.getLsbD t) (h.2 i hi hi')
  have e' := congrArg (fun z : BitVec n => z.getLsbD t) (h'.2 i hi hi')
  simp only [BitVec.getLsbD_and, BitVec.getLsbD_not, ht, decide_true, Bool.true_and] at e e'
  cases hm : (m i).getLsbD t with
  | true => simpa [hm] using e
  | false => simpa [hm] using e'

theorem top_bit {b : List (BitVec 32)} {p : Nat} (hp : p + 8 ≤ 32) {x : BitVec 7}
    (h : fieldAt b 1 p 8 = some (x.setWidth 8).toNat) : fieldAt b 1 p 1 = some 0 := by
  unfold fieldAt at h ⊢
  cases hb : b[1]? with
  | none => rw [hb] at h; cases h
  | some z =>
    rw [hb] at h
    simp only [Option.map_some, Option.some.injEq] at h ⊢
    have hx := x.isLt
    rw [BitVec.toNat_setWidth, Nat.mod_eq_of_lt (by omega)] at h
    unfold field at h ⊢
    rw [show 32 - p - 1 = (32 - p - 8) + 7 by omega, Nat.pow_add, ← Nat.div_div_eq_div_mul]
    omega

end Midi2
