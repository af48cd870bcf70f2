import Verif.Lemmas.Lens
import Verif.Props.Derived
import Verif.Props.Layout
import Verif.Spec.Equality

/-!
# C61: which accepted messages are equal

`Verif/Props/Derived.lean` has the messages made by `new` and setters.
-/

namespace Midi2

theorem fieldAt_bit {b c : List (BitVec 32)} {i p n t : Nat} (ht : t < 32) (h1 : p ≤ t)
    (h2 : t < p + n) (hn : p + n ≤ 32) (h : fieldAt b i p n = fieldAt c i p n)
    (hi : i < b.length) (hi' : i < c.length) :
    b[i].getLsbD (31 - t) = c[i].getLsbD (31 - t) := by
  rw [fieldAt_ok hi, fieldAt_ok hi', Option.some.injEq] at h
  exact field_bit h (by omega) (by omega)

theorem field8_bit {x y : BitVec 8} {p n t : Nat}
    (h : x.toNat / 2 ^ (8 - p - n) % 2 ^ n = y.toNat / 2 ^ (8 - p - n) % 2 ^ n)
    (h1 : 8 - p - n ≤ t) (h2 : t < 8 - p - n + n) : x.getLsbD t = y.getLsbD t := by
  have e : ∀ z : BitVec 8, z.toNat / 2 ^ (8 - p - n) % 2 ^ n =
      (z.extractLsb' (8 - p - n) n).toNat := by
    intro z
    simp [BitVec.extractLsb'_toNat, Nat.shiftRight_eq_div_pow]
  rw [e, e] at h
  have := congrArg (fun z => z.getLsbD (t - (8 - p - n))) (BitVec.eq_of_toNat_eq h)
  simp only [BitVec.getLsbD_extractLsb'] at this
  rw [show 8 - p - n + (t - (8 - p - n)) = t by omega,
    show decide (t - (8 - p - n) < n) = true from decide_eq_true (by omega)] at this
  simpa using this

theorem fieldAt8_bit {b c : List (BitVec 8)} {i p n t : Nat} (ht : t < 8) (h1 : p ≤ t)
    (h2 : t < p + n) (hn : p + n ≤ 8) (h : fieldAt8 b i p n = fieldAt8 c i p n)
    (hi : i < b.length) (hi' : i < c.length) :
    b[i].getLsbD (7 - t) = c[i].getLsbD (7 - t) := by
  rw [fieldAt8_ok hi, fieldAt8_ok hi', Option.some.injEq] at h
  exact field8_bit h (by omega) (by omega)

theorem valueOf8_inj {b c : List (BitVec 8)} {k : Nat} :
    ∀ {ps : List (Nat × Nat × Nat)} {x y : Nat}, valueOf8 b ps x = some k → valueOf8 c ps y = some k →
      x = y ∧ ∀ p ∈ ps, fieldAt8 b p.1 p.2.1 p.2.2 = fieldAt8 c p.1 p.2.1 p.2.2
  | [], x, y, h, h' => by
    cases h; cases h'
    exact ⟨rfl, fun _ h => nomatch h⟩
  | (w, p, n) :: ps, x, y, h, h' => by
    have hlt : ∀ {b : List (BitVec 8)} {u : Nat}, fieldAt8 b w p n = some u → u < 2 ^ n := by
      intro b u e
      unfold fieldAt8 at e
      cases hb : b[w]? with
      | none => rw [hb] at e; cases e
      | some z =>
        rw [hb] at e; cases e
        exact Nat.mod_lt _ (pow2_pos n)
    unfold valueOf8 at h h'
    cases e : fieldAt8 b w p n with
    | none => rw [e] at h; cases h
    | some u =>
      cases e' : fieldAt8 c w p n with
      | none => rw [e'] at h'; cases h'
      | some u' =>
        rw [e] at h; rw [e'] at h'
        obtain ⟨h1, h2⟩ := valueOf8_inj (ps := ps) (x := x * 2 ^ n + u) (y := y * 2 ^ n + u') h h'
        have hx : x = y := by
          have := congrArg (· / 2 ^ n) h1
          simp only [Nat.mul_comm _ (2 ^ n), Nat.mul_add_div (pow2_pos n),
            Nat.div_eq_of_lt (hlt e), Nat.div_eq_of_lt (hlt e'), Nat.add_zero] at this
          exact this
        subst hx
        have huu : u = u' := by omega
        refine ⟨rfl, fun q hq => ?_⟩
        rcases List.mem_cons.mp hq with rfl | hq
        · show fieldAt8 b w p n = fieldAt8 c w p n
          rw [e, e', huu]
        · exact h2 q hq

/-- Every field of the tables lies within one unit. -/
theorem layout_inside : (Layout.ump.all fun l => (l.consts.all fun c => decide (c.2.1 + c.2.2.1 ≤ 32)) &&
      l.props.all fun q => q.2.all fun p => decide (p.2.1 + p.2.2 ≤ 32)) = true ∧
    (Layout.bytes.all fun l => (l.consts.all fun c => decide (c.2.1 + c.2.2.1 ≤ 8)) &&
      l.props.all fun q => q.2.all fun p => decide (p.2.1 + p.2.2 ≤ 8)) = true := by
  constructor <;> decide +kernel

theorem layout_inside_mem {w : Nat} {t : List Layout}
    (ht : (t.all fun l => (l.consts.all fun c => decide (c.2.1 + c.2.2.1 ≤ w)) &&
      l.props.all fun q => q.2.all fun p => decide (p.2.1 + p.2.2 ≤ w)) = true)
    {l : Layout} (hl : l ∈ t) :
    (∀ i p n v, (i, p, n, v) ∈ l.consts → p + n ≤ w) ∧
    (∀ name ps i p n, (name, ps) ∈ l.props → (i, p, n) ∈ ps → p + n ≤ w) := by
  have := List.all_eq_true.mp ht l hl
  rw [Bool.and_eq_true] at this
  refine ⟨fun i p n v h => of_decide_eq_true (List.all_eq_true.mp this.1 _ h), ?_⟩
  intro name ps i p n h h'
  exact of_decide_eq_true (List.all_eq_true.mp (List.all_eq_true.mp this.2 _ h) _ h')

/-- C61 (UMP): take any two accepted messages of one type.  They are equal exactly if their
buffers have the same length, every getter returns the same for both, the bits that belong to no
field are the same, and so are the bits of each property that reads as absent (`None`), which its
value does not determine.  (`FunctionBlockDiscovery` needs slices of four words: the constant
fields of shorter ones are not checked, see `C51_ump_constants`.) -/
theorem C61_ump_exactly {d : MsgDesc} (hd : d ∈ Msg.all) (b b' : Buf .ump)
    (hok : d.tryFrom .ump b = .ok b) (hok' : d.tryFrom .ump b' = .ok b')
    (h4 : d.name = "ump_stream::FunctionBlockDiscovery" → 4 ≤ b.length ∧ 4 ≤ b'.length) :
    ∃ l ∈ Layout.ump, l.name = d.name ∧
      (messageEq b b' = true ↔ b.length = b'.length ∧
        (∀ n f, (n, f) ∈ d.props → f.accessible .ump = true → f.read .ump b = f.read .ump b') ∧
        (∀ i t, t < 32 → ¬ l.Covers i t → fieldAt b i t 1 = fieldAt b' i t 1) ∧
        (∀ n f ps, (n, f) ∈ d.props → (n, ps) ∈ l.props →
          (∀ v, f.read .ump b = .ok v → f.definite v = false) →
          ∀ i p k, (i, p, k) ∈ ps → fieldAt b i p k = fieldAt b' i p k)) := by
  have ht := List.all_eq_true.mp table_layout d hd
  cases e : layoutOf Layout.ump d with
  | none => rw [e] at ht; cases ht
  | some l =>
    rw [e] at ht
    have ht := of_decide_eq_true ht
    obtain ⟨h1, h2⟩ := layoutOf_mem e
    have hconst : ∀ c : Buf .ump, d.tryFrom .ump c = .ok c →
        (d.name = "ump_stream::FunctionBlockDiscovery" → 4 ≤ c.length) →
        ∀ w p n v, (w, p, n, v) ∈ l.consts → fieldAt c w p n = some v := by
      intro c hc hc4
      obtain ⟨l', g1, g2, g3⟩ := C51_ump_constants hd c hc hc4
      have : ∀ l ∈ Layout.ump, ∀ l' ∈ Layout.ump, l.name = l'.name → l.consts = l'.consts := by
        decide +kernel
      rw [this l h1 l' g1 (h2.trans g2.symm)]
      exact g3
    have c1 := hconst b hok fun h => (h4 h).1
    have c2 := hconst b' hok' fun h => (h4 h).2
    obtain ⟨in1, in2⟩ := layout_inside_mem layout_inside.1 h1
    refine ⟨l, h1, h2, ?_⟩
    simp only [messageEq, beq_iff_eq]
    constructor
    · rintro rfl
      exact ⟨rfl, fun _ _ _ _ => rfl, fun _ _ _ _ => rfl, fun _ _ _ _ _ _ _ _ _ _ => rfl⟩
    · rintro ⟨hl, hr, hfree, hnone⟩
      apply List.ext_getElem hl
      intro i hi hi'
      apply BitVec.eq_of_getLsbD_eq
      intro t ht32
      have ht32 : t < 32 := ht32
      rw [show t = 31 - (31 - t) by omega]
      by_cases hcov : l.Covers i (31 - t)
      · rcases hcov with ⟨p, n, v, hm, q1, q2⟩ | ⟨name, ps, p, n, hm, hp, q1, q2⟩
        · exact fieldAt_bit (by omega) q1 q2 (in1 _ _ _ _ hm)
            ((c1 _ _ _ _ hm).trans (c2 _ _ _ _ hm).symm) hi hi'
        · have hps := hm
          rw [ht, List.mem_map] at hps
          obtain ⟨⟨n', f⟩, hf, ef⟩ := hps
          rw [List.mem_filter] at hf
          simp only [Prod.mk.injEq] at ef
          obtain ⟨rfl, rfl⟩ := ef
          refine fieldAt_bit (by omega) q1 q2 (in2 _ _ _ _ _ hm hp) ?_ hi hi'
          obtain ⟨v, hv⟩ := (C06_fixed_ump_reads hd b hok).1 _ _ hf.1
          cases hdef : f.definite v with
          | true =>
            have hfit := MsgDesc.fits_mem (List.all_eq_true.mp table_ump_fits d hd) hf.1
            simp only [Fld.fits, Bool.and_eq_true, decide_eq_true_eq] at hfit
            have hlen : ∀ c : Buf .ump, d.tryFrom .ump c = .ok c → f.umpBits.need ≤ c.length :=
              fun c hc => Nat.le_trans hfit.2 ((tryFrom_iff d .ump c).mp hc).1
            exact f.read_fields (accessible_not_const hf.2) hdef (hlen b hok) (hlen b' hok') hv
              ((hr _ _ hf.1 hf.2).symm.trans hv) _ hp
          | false =>
            refine hnone _ f f.pieces hf.1 hm (fun u hu => ?_) _ _ _ hp
            rw [hv] at hu
            cases hu
            exact hdef
      · exact fieldAt_bit (t := 31 - t) (by omega) (Nat.le_refl _) (by omega) (by omega)
          (hfree i (31 - t) (by omega) hcov) hi hi'

/-- C61 (bytes): as for words.  A song position pointer of two bytes, whose getter panics, counts
as one whose bits are not determined. -/
theorem C61_bytes_exactly {d : MsgDesc} (hd : d ∈ Msg.hybridAll) (b b' : Buf .bytes)
    (hok : d.tryFrom .bytes b = .ok b) (hok' : d.tryFrom .bytes b' = .ok b') :
    ∃ l ∈ Layout.bytes, l.name = d.name ∧
      (messageEq b b' = true ↔ b.length = b'.length ∧
        (∀ n f, (n, f) ∈ d.props → f.accessible .bytes = true →
          f.read .bytes b = f.read .bytes b') ∧
        (∀ i t, t < 8 → ¬ l.Covers i t → fieldAt8 b i t 1 = fieldAt8 b' i t 1) ∧
        (∀ n f ps, (n, f) ∈ d.props → (n, ps) ∈ l.props →
          (∀ v, f.read .bytes b ≠ .ok v) →
          ∀ i p k, (i, p, k) ∈ ps → fieldAt8 b i p k = fieldAt8 b' i p k)) := by
  have ht := List.all_eq_true.mp table_layout8 d hd
  cases e : layoutOf Layout.bytes d with
  | none => rw [e] at ht; cases ht
  | some l =>
    rw [e] at ht
    have ht := of_decide_eq_true ht
    obtain ⟨h1, h2⟩ := layoutOf_mem e
    have hconst : ∀ c : Buf .bytes, d.tryFrom .bytes c = .ok c →
        ∀ w p n v, (w, p, n, v) ∈ l.consts → fieldAt8 c w p n = some v := by
      intro c hc
      obtain ⟨l', g1, g2, g3⟩ := C51_bytes_constants hd c hc
      have : ∀ l ∈ Layout.bytes, ∀ l' ∈ Layout.bytes, l.name = l'.name → l.consts = l'.consts := by
        decide +kernel
      rw [this l h1 l' g1 (h2.trans g2.symm)]
      exact g3
    have c1 := hconst b hok
    have c2 := hconst b' hok'
    obtain ⟨in1, in2⟩ := layout_inside_mem layout_inside.2 h1
    refine ⟨l, h1, h2, ?_⟩
    simp only [messageEq, beq_iff_eq]
    constructor
    · rintro rfl
      exact ⟨rfl, fun _ _ _ _ => rfl, fun _ _ _ _ => rfl, fun _ _ _ _ _ _ _ _ _ _ => rfl⟩
    · rintro ⟨hl, hr, hfree, hnone⟩
      apply List.ext_getElem hl
      intro i hi hi'
      apply BitVec.eq_of_getLsbD_eq
      intro t ht8
      have ht8 : t < 8 := ht8
      rw [show t = 7 - (7 - t) by omega]
      by_cases hcov : l.Covers i (7 - t)
      · rcases hcov with ⟨p, n, v, hm, q1, q2⟩ | ⟨name, ps, p, n, hm, hp, q1, q2⟩
        · exact fieldAt8_bit (by omega) q1 q2 (in1 _ _ _ _ hm)
            ((c1 _ _ _ _ hm).trans (c2 _ _ _ _ hm).symm) hi hi'
        · have hps := hm
          rw [ht, List.mem_map] at hps
          obtain ⟨⟨n', f⟩, hf, ef⟩ := hps
          rw [List.mem_filter] at hf
          simp only [Prod.mk.injEq] at ef
          obtain ⟨rfl, rfl⟩ := ef
          refine fieldAt8_bit (by omega) q1 q2 (in2 _ _ _ _ _ hm hp) ?_ hi hi'
          by_cases hv : ∃ v, f.read .bytes b = .ok v
          · obtain ⟨v, hv⟩ := hv
            obtain ⟨k, k1, k2⟩ := Fld.read8_value f hf.2 hv
            obtain ⟨k', k1', k2'⟩ := Fld.read8_value f hf.2 ((hr _ _ hf.1 hf.2).symm.trans hv)
            have hdual := List.all_eq_true.mp (List.all_eq_true.mp table_dual d hd) _ hf.1
            have hkk : k = k' := by
              refine f.denotes_unique (accessible_not_const hf.2) (v := v) ?_ ?_ k2 k2'
              · cases f <;> first | rfl | cases hdual | cases hf.2
              · rintro rfl
                exact absurd (show false = true from hdual) (by decide)
            subst hkk
            exact (valueOf8_inj k1 k1').2 _ hp
          · exact hnone _ f f.pieces8 hf.1 hm (fun v h => hv ⟨v, h⟩) _ _ _ hp
      · exact fieldAt8_bit (t := 7 - t) (by omega) (Nat.le_refl _) (by omega) (by omega)
          (hfree i (7 - t) (by omega) hcov) hi hi'

/-- Two note-ons that differ only in a reserved bit (bit 16 of word 0): the theorem tells them
apart by nothing else. -/
example :
    let b : Buf .ump := [0x40903C01, 0x80001234]
    let b' : Buf .ump := [0x4090BC01, 0x80001234]
    Msg.cv2NoteOn.tryFrom .ump b = .ok b ∧ Msg.cv2NoteOn.tryFrom .ump b' = .ok b' ∧
    (∀ l ∈ Layout.ump, l.name = Msg.cv2NoteOn.name → ¬ l.Covers 0 16) ∧
    fieldAt b 0 16 1 ≠ fieldAt b' 0 16 1 := by
  refine ⟨rfl, rfl, ?_, by decide⟩
  intro l hl hn
  have : ∀ l ∈ Layout.ump, l.name = Msg.cv2NoteOn.name →
      (∀ c ∈ l.consts, ¬ (c.1 = 0 ∧ c.2.1 ≤ 16 ∧ 16 < c.2.1 + c.2.2.1)) ∧
      (∀ q ∈ l.props, ∀ p ∈ q.2, ¬ (p.1 = 0 ∧ p.2.1 ≤ 16 ∧ 16 < p.2.1 + p.2.2)) := by
    decide +kernel
  obtain ⟨g1, g2⟩ := this l hl hn
  rintro (⟨p, n, v, hm, q⟩ | ⟨name, ps, p, n, hm, hp, q⟩)
  · exact g1 _ hm ⟨rfl, q⟩
  · exact g2 _ hm _ hp ⟨rfl, q⟩

/-- A message of every type meets the hypotheses: the newly made ones. -/
example : Msg.all.all (fun d => match d.newVec .ump with
    | .ok b => d.tryFrom .ump b == .ok b
    | _ => true) = true := by decide +kernel

end Midi2
