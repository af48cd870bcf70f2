import Verif.Lemmas.Construct
import Verif.Props.BitOps

/-! Conversion between byte and UMP representation. -/

namespace Midi2

/-- The property kinds occurring in messages with both representations. -/
def Fld.dual : Fld → Bool
  | .umpType _ | .cvStatus _ | .sysStatus _ => true
  | .hybrid r _ _ => r == .u4 || r == .u7 || r == .u8 || r == .u14
  | .schema r _ => r == .u4
  | _ => false

theorem table_dual : Msg.hybridAll.all (fun d => d.props.all fun p => p.2.dual) = true := by
  decide +kernel

/-- All different properties occupy different bits. -/
def MsgDesc.apart (d : MsgDesc) (m : Fmt) : Bool :=
  d.props.all fun p => d.props.all fun q => p.1 == q.1 || p.2.sep m q.2

theorem table_apart : Msg.hybridAll.all (fun d => d.apart .ump && d.apart .bytes) = true := by
  decide +kernel

theorem Fld.dual_faithful {f : Fld} (h : f.dual = true) (v : f.Ty) : f.faithful v = true := by
  cases f <;> first | rfl | cases h

theorem Fld.dual_ranging {f : Fld} (h : f.dual = true) : f.ranging = false := by
  cases f <;> first | rfl | cases h

/-- Write law for every property of a dual message. -/
theorem Fld.write_dual {m : Fmt} {f : Fld} {size : Nat} (hd : f.dual = true)
    (hf : f.fits m size = true) {b : Buf m} (hb : size ≤ b.length) (v : f.Ty) :
    ∃ b', f.write m b v = .ok b' ∧ SameOff (f.bits m) b b' ∧
      (f.accessible m = true → f.read m b' = .ok v) ∧ f.validate m b' = .ok () := by
  cases m with
  | ump =>
    simp only [fits, Bool.and_eq_true, decide_eq_true_eq] at hf
    obtain ⟨b', e1, e2, e3, e4⟩ := write32_law f (dual_ranging hd) hf.1
      (Nat.le_trans hf.2 hb) v (dual_faithful hd v)
    exact ⟨b', e1, e2, fun _ => e3, e4⟩
  | bytes =>
    have hf' := hf
    simp only [fits, Bool.and_eq_true, decide_eq_true_eq] at hf
    obtain ⟨b', e1, e2, _, e4⟩ := write8_law f hf.1 (Nat.le_trans hf.2 hb) v
    refine ⟨b', e1, e2, fun ha => ?_, e4⟩
    obtain ⟨b'', i1, _, i3, _⟩ := Fld.write_law ha hf' hb v (dual_faithful hd v)
    have i1 : f.write8 b v = .ok b'' := i1
    rw [e1] at i1; cases i1
    exact i3

/-- Union of the bits of a list of properties, word `i`. -/
def usedBits (m : Fmt) (ps : List (String × Fld)) (i : Nat) : BitVec m.w :=
  ps.foldr (fun p acc => p.2.bits m i ||| acc) 0

theorem SameOff.mono {n : Nat} {m m' : Nat → BitVec n} {a b : List (BitVec n)}
    (h : SameOff m a b) (hm : ∀ i, m i &&& m' i = m i) : SameOff m' a b := by
  refine ⟨h.1, fun i hi hi' => ?_⟩
  have e := h.2 i hi hi'
  apply BitVec.eq_of_getLsbD_eq
  intro k hk
  have e := congrArg (fun y : BitVec n => y.getLsbD k) e
  have e' := congrArg (fun y : BitVec n => y.getLsbD k) (hm i)
  simp only [BitVec.getLsbD_and, BitVec.getLsbD_not, hk, decide_true, Bool.true_and] at e e' ⊢
  revert e e'
  cases (m i).getLsbD k <;> cases (m' i).getLsbD k <;> simp

theorem or_and_left {n : Nat} (x y : BitVec n) : x &&& (x ||| y) = x := by
  apply BitVec.eq_of_getLsbD_eq
  intro k hk
  simp only [BitVec.getLsbD_and, BitVec.getLsbD_or]
  cases x.getLsbD k <;> simp

theorem or_and_right {n : Nat} (x y : BitVec n) : y &&& (x ||| y) = y := by
  apply BitVec.eq_of_getLsbD_eq
  intro k hk
  simp only [BitVec.getLsbD_and, BitVec.getLsbD_or]
  cases y.getLsbD k <;> simp

/-- The conversion loop: every property arrives. -/
theorem convertProps_law {src dst : Fmt} {size : Nat} (a : Buf src) :
    ∀ (ps : List (String × Fld)),
      (ps.map (·.1)).Nodup → (∀ p ∈ ps, p.2.dual = true) →
      (∀ p ∈ ps, p.2.fits dst size = true) →
      (∀ p ∈ ps, ∀ q ∈ ps, p.1 ≠ q.1 → p.2.sep dst q.2 = true) →
      (∀ p ∈ ps, ∃ v, p.2.read src a = .ok v) →
      ∀ b : Buf dst, size ≤ b.length →
      ∃ b', convertProps src dst ps a b = .ok b' ∧ SameOff (usedBits dst ps) b b' ∧
        (∀ p ∈ ps, p.2.validate dst b' = .ok () ∧
          (p.2.accessible dst = true → p.2.read dst b' = p.2.read src a)) ∧
        (∀ g : Fld, (∀ p ∈ ps, p.2.sep dst g = true) →
          g.read dst b' = g.read dst b ∧ g.validate dst b' = g.validate dst b)
  | [], _, _, _, _, _, b, _ => ⟨b, rfl, SameOff.refl _ _, fun _ h => (by cases h), fun _ _ => ⟨rfl, rfl⟩⟩
  | (n, f) :: ps, hn, hd, hf, hs, hr, b, hb => by
    rw [List.map_cons, List.nodup_cons] at hn
    obtain ⟨v, hv⟩ := hr _ List.mem_cons_self
    obtain ⟨b1, e1, e2, e3, e4⟩ := Fld.write_dual (hd _ List.mem_cons_self)
      (hf _ List.mem_cons_self) hb v
    obtain ⟨b', i1, i2, i3, i4⟩ := convertProps_law a ps hn.2
      (fun p h => hd p (List.mem_cons_of_mem _ h)) (fun p h => hf p (List.mem_cons_of_mem _ h))
      (fun p h q h' => hs p (List.mem_cons_of_mem _ h) q (List.mem_cons_of_mem _ h'))
      (fun p h => hr p (List.mem_cons_of_mem _ h)) b1 (by rw [← e2.1]; exact hb)
    refine ⟨b', ?_, ?_, ?_, ?_⟩
    · show (f.read src a >>= fun v => f.write dst b v >>= fun b => convertProps src dst ps a b) = _
      rw [hv]
      show (f.write dst b v >>= fun b => convertProps src dst ps a b) = _
      rw [e1]; exact i1
    · exact (e2.mono fun i => or_and_left _ _).trans (i2.mono fun i => or_and_right _ _)
    · intro p hp
      rcases List.mem_cons.mp hp with rfl | hp
      · obtain ⟨h1, h2⟩ := i4 f (fun q hq => hs q (List.mem_cons_of_mem _ hq) (n, f)
          List.mem_cons_self (fun e => hn.1 (List.mem_map.mpr ⟨q, hq, e⟩)))
        refine ⟨by rw [h2]; exact e4, fun ha => ?_⟩
        have e3 := e3 ha
        show f.read dst b' = f.read src a
        rw [h1, e3, hv]
      · exact i3 p hp
    · intro g hg
      obtain ⟨h1, h2⟩ := i4 g (fun q hq => hg q (List.mem_cons_of_mem _ hq))
      have h3 := Fld.read_of_sep (hg _ List.mem_cons_self) e2
      have h4 := Fld.validate_of_sep (hg _ List.mem_cons_self) e2
      exact ⟨by rw [h1, h3], by rw [h2, h4]⟩

/-! ## Equal values have equal bits -/

theorem and_of_ext {n k s : Nat} {m x y : BitVec n} (hm : m = (BitVec.allOnes k).setWidth n <<< s)
    (h : x.extractLsb' s k = y.extractLsb' s k) : x &&& m = y &&& m := by
  subst hm
  apply BitVec.eq_of_getLsbD_eq
  intro j hj
  simp only [BitVec.getLsbD_and, BitVec.getLsbD_shiftLeft, BitVec.getLsbD_setWidth,
    BitVec.getLsbD_allOnes, hj, decide_true, Bool.true_and]
  by_cases h1 : s ≤ j
  · by_cases h2 : j - s < k
    · have := congrArg (fun z : BitVec k => z.getLsbD (j - s)) h
      simp only [getLsbD_ext, h2, decide_true, Bool.true_and, show s + (j - s) = j by omega] at this
      rw [this]
    · simp [h2]
  · simp [show j < s by omega]

theorem and_or_of {n : Nat} {m m1 m2 x y : BitVec n} (hm : m = m1 ||| m2)
    (h1 : x &&& m1 = y &&& m1) (h2 : x &&& m2 = y &&& m2) : x &&& m = y &&& m := by
  subst hm
  rw [BitVec.and_or_distrib_left, BitVec.and_or_distrib_left, h1, h2]

/-- The byte masks are exactly the bits used. -/
def byteExact (r : Rep) (i j : Nat) (s : BytesSchema) : Bool :=
  match r with
  | .u4 => s.at i == (BitVec.allOnes 4).setWidth 8 <<< (4 - j * 4) &&
      (List.range 3).all fun k => k == i || s.at k == 0
  | .u7 => s.at i == (BitVec.allOnes 7).setWidth 8 <<< 0 &&
      (List.range 3).all fun k => k == i || s.at k == 0
  | .u8 => s.at i == (BitVec.allOnes 8).setWidth 8 <<< 0 &&
      (List.range 3).all fun k => k == i || s.at k == 0
  | .u14 => s.at i == (BitVec.allOnes 7).setWidth 8 <<< 0 &&
      s.at (i + 1) == (BitVec.allOnes 7).setWidth 8 <<< 0 &&
      (List.range 3).all fun k => k == i || k == i + 1 || s.at k == 0
  | _ => true

theorem bytesImpl_exact {r : Rep} {s : BytesSchema} {i j : Nat}
    (h : (bytesImpl r).lookup s = some (i, j)) : byteExact r i j s = true := by
  have t : (bytesImpl r).all (fun e => byteExact r e.2.1 e.2.2 e.1) = true := by
    cases r <;> decide +kernel
  exact List.all_eq_true.mp t _ (mem_of_lookup h)

theorem at8_zero {s : BytesSchema} {i : Nat}
    (h : (List.range 3).all (fun k => k == i || s.at k == 0) = true) :
    ∀ k, s.at k ≠ 0 → k = i := by
  intro k hk
  by_cases h3 : k < 3
  · have := List.all_eq_true.mp h k (by simpa using h3)
    simp only [Bool.or_eq_true, beq_iff_eq] at this
    exact this.resolve_right hk
  · exact absurd (show s.at k = 0 by match k, h3 with | k + 3, _ => rfl) hk

theorem at8_zero2 {s : BytesSchema} {i : Nat}
    (h : (List.range 3).all (fun k => k == i || k == i + 1 || s.at k == 0) = true) :
    ∀ k, s.at k ≠ 0 → k = i ∨ k = i + 1 := by
  intro k hk
  by_cases h3 : k < 3
  · have := List.all_eq_true.mp h k (by simpa using h3)
    simp only [Bool.or_eq_true, beq_iff_eq] at this
    exact this.resolve_right hk
  · exact absurd (show s.at k = 0 by match k, h3 with | k + 3, _ => rfl) hk

theorem at'_some {α : Type} {b : List α} {i : Nat} {x : α} (h : at' b i = .ok x) :
    b[i]? = some x := by
  unfold at' at h
  cases e : b[i]? with
  | none => rw [e] at h; cases h
  | some y => rw [e] at h; cases h; rfl

theorem u14_inj {a b a' b' : BitVec 7} (h : u14FromU7s a b = u14FromU7s a' b') :
    a = a' ∧ b = b' := by
  have h1 := C41_encode_decode.1 a b
  rw [h, C41_encode_decode.1] at h1
  cases h1
  exact ⟨rfl, rfl⟩

theorem bytesRead_inj {r : Rep} {s : BytesSchema} {b b' : List (BitVec 8)} {v : r.Ty}
    (h : bytesRead r s b = .ok v) (h' : bytesRead r s b' = .ok v) : Agree s.at b b' := by
  cases e : (bytesImpl r).lookup s with
  | none => cases r <;> simp [bytesRead, e] at h
  | some x =>
    obtain ⟨i, j⟩ := x
    have hx := bytesImpl_exact e
    cases r <;> simp only [bytesRead, e] at h h'
    case u4 =>
      simp only [byteExact, Bool.and_eq_true, beq_iff_eq] at hx
      obtain ⟨x, a1, a2⟩ := bind_inv h
      obtain ⟨y, c1, c2⟩ := bind_inv h'
      intro k hk
      obtain rfl := at8_zero hx.2 k hk
      rw [at'_some a1, at'_some c1]
      show some _ = some _
      congr 1
      apply and_of_ext hx.1
      rw [← U8.nibble_eq, ← U8.nibble_eq]
      exact Res.ok.inj (a2.trans c2.symm)
    case u7 =>
      simp only [byteExact, Bool.and_eq_true, beq_iff_eq] at hx
      obtain ⟨x, a1, a2⟩ := bind_inv h
      obtain ⟨y, c1, c2⟩ := bind_inv h'
      intro k hk
      obtain rfl := at8_zero hx.2 k hk
      rw [at'_some a1, at'_some c1]
      show some _ = some _
      congr 1
      apply and_of_ext hx.1
      rw [← U8.septet_eq, ← U8.septet_eq]
      exact Res.ok.inj (a2.trans c2.symm)
    case u8 =>
      simp only [byteExact, Bool.and_eq_true, beq_iff_eq] at hx
      intro k hk
      obtain rfl := at8_zero hx.2 k hk
      rw [at'_some h, at'_some h']
    case u14 =>
      simp only [byteExact, Bool.and_eq_true, beq_iff_eq] at hx
      obtain ⟨x, a1, a2⟩ := bind_inv h
      obtain ⟨y, c1, c2⟩ := bind_inv a2
      obtain ⟨x', a1', a2'⟩ := bind_inv h'
      obtain ⟨y', c1', c2'⟩ := bind_inv a2'
      obtain ⟨e1, e2⟩ := u14_inj (Res.ok.inj (c2.trans c2'.symm))
      intro k hk
      rcases at8_zero2 hx.2 k hk with rfl | rfl
      · rw [at'_some a1, at'_some a1']
        show some _ = some _
        congr 1
        apply and_of_ext hx.1.1
        rw [← U8.septet_eq, ← U8.septet_eq]; exact e1
      · rw [at'_some c1, at'_some c1']
        show some _ = some _
        congr 1
        apply and_of_ext hx.1.2
        rw [← U8.septet_eq, ← U8.septet_eq]; exact e2
    all_goals cases h

/-- The UMP masks of the representations used by dual messages are exactly the bits used. -/
def umpExact (r : Rep) (i j : Nat) (s : UmpSchema) : Bool :=
  let zero := (List.range 4).all fun k => k == i || s.at k == 0
  match r with
  | .u4 => s.at i == (BitVec.allOnes 4).setWidth 32 <<< (28 - j * 4) && zero
  | .u7 => s.at i == (BitVec.allOnes 7).setWidth 32 <<< (24 - j * 8) && zero
  | .u8 => s.at i == (BitVec.allOnes 8).setWidth 32 <<< (24 - j * 8) && zero
  | .u14 => s.at i == ((BitVec.allOnes 7).setWidth 32 <<< (24 - 2 * j * 8) |||
      (BitVec.allOnes 7).setWidth 32 <<< (24 - (2 * j + 1) * 8)) && zero
  | _ => true

theorem umpImpl_exact {r : Rep} {s : UmpSchema} {i j : Nat}
    (h : (umpImpl r).lookup s = some (i, j)) : umpExact r i j s = true := by
  have t : (umpImpl r).all (fun e => umpExact r e.2.1 e.2.2 e.1) = true := by
    cases r <;> decide +kernel
  exact List.all_eq_true.mp t _ (mem_of_lookup h)

theorem at32_zero {s : UmpSchema} {i : Nat}
    (h : (List.range 4).all (fun k => k == i || s.at k == 0) = true) :
    ∀ k, s.at k ≠ 0 → k = i := by
  intro k hk
  by_cases h3 : k < 4
  · have := List.all_eq_true.mp h k (by simpa using h3)
    simp only [Bool.or_eq_true, beq_iff_eq] at this
    exact this.resolve_right hk
  · exact absurd (show s.at k = 0 by match k, h3 with | k + 4, _ => rfl) hk

theorem umpRead_inj {r : Rep} (hr : (r == .u4 || r == .u7 || r == .u8 || r == .u14) = true)
    {s : UmpSchema} {b b' : List (BitVec 32)} {v : r.Ty}
    (h : umpRead r s b = .ok v) (h' : umpRead r s b' = .ok v) : Agree s.at b b' := by
  unfold umpRead at h h'
  cases e : (umpImpl r).lookup s with
  | none => rw [e] at h; cases h
  | some x =>
    obtain ⟨i, j⟩ := x
    have hx := umpImpl_exact e
    rw [e] at h h'
    simp only at h h'
    cases r <;> try cases hr
    all_goals simp only [umpExact, Bool.and_eq_true, beq_iff_eq] at hx
    all_goals obtain ⟨x, a1, a2⟩ := bind_inv h
    all_goals obtain ⟨y, c1, c2⟩ := bind_inv h'
    all_goals intro k hk
    all_goals obtain rfl := at32_zero hx.2 k hk
    all_goals rw [at'_some a1, at'_some c1]
    all_goals show some _ = some _
    all_goals congr 1
    case some.u4.refl =>
      apply and_of_ext hx.1
      rw [← U32.nibble_eq, ← U32.nibble_eq]
      exact Res.ok.inj (a2.trans c2.symm)
    case some.u7.refl =>
      apply and_of_ext hx.1
      rw [← U32.septet_eq, ← U32.septet_eq]
      exact Res.ok.inj (a2.trans c2.symm)
    case some.u8.refl =>
      apply and_of_ext hx.1
      rw [← U32.octet_eq, ← U32.octet_eq]
      exact Res.ok.inj (a2.trans c2.symm)
    case some.u14.refl =>
      obtain ⟨e1, e2⟩ := u14_inj (Res.ok.inj (a2.trans c2.symm))
      apply and_or_of hx.1
      · apply and_of_ext rfl
        rw [← U32.septet_eq, ← U32.septet_eq]; exact e1
      · apply and_of_ext rfl
        rw [← U32.septet_eq, ← U32.septet_eq]; exact e2

theorem at8_only0 {x : BitVec 8} {k : Nat} (h : (BytesSchema.mk x 0 0).at k ≠ 0) : k = 0 := by
  match k with
  | 0 => rfl
  | 1 => exact absurd rfl h
  | 2 => exact absurd rfl h
  | k + 3 => exact absurd rfl h

theorem at32_only0 {x : BitVec 32} {k : Nat} (h : (UmpSchema.mk x 0 0 0).at k ≠ 0) : k = 0 := by
  match k with
  | 0 => rfl
  | 1 => exact absurd rfl h
  | 2 => exact absurd rfl h
  | 3 => exact absurd rfl h
  | k + 4 => exact absurd rfl h

theorem check_eq_inv {n : Nat} {b : List (BitVec n)} {T : Type} [BEq T] [LawfulBEq T] {g : BitVec n → T}
    {t : T} (h : (at' b 0 >>= fun w => Res.check (g w == t)) = .ok ()) :
    ∃ x, b[0]? = some x ∧ g x = t := by
  obtain ⟨x, h1, h2⟩ := bind_inv h
  exact ⟨x, at'_some h1, eq_of_beq (check_ok h2)⟩

/-- Two valid byte buffers with the same value of a property agree on its bits. -/
theorem Fld.agree8 (f : Fld) (hd : f.dual = true) {b b' : List (BitVec 8)} {v : f.Ty}
    (h1 : f.read8 b = .ok v) (h2 : f.read8 b' = .ok v) (v1 : f.validate8 b = .ok ())
    (v2 : f.validate8 b' = .ok ()) : Agree f.byteBits.at b b' := by
  cases f <;> try cases hd
  case umpType => intro k hk; exact absurd (by match k with | 0 | 1 | 2 | k + 3 => rfl) hk
  case schema => intro k hk; exact absurd (by match k with | 0 | 1 | 2 | k + 3 => rfl) hk
  case hybrid => exact bytesRead_inj h1 h2
  case cvStatus s =>
    obtain ⟨x, hx, ex⟩ := check_eq_inv v1
    obtain ⟨y, hy, ey⟩ := check_eq_inv v2
    intro k hk
    obtain rfl := at8_only0 hk
    rw [hx, hy]
    show some _ = some _
    congr 1
    apply and_of_ext (k := 4) (s := 4) (show (0xF0#8 : BitVec 8) = _ by decide)
    exact (U8.nibble_eq x 0).symm.trans ((ex.trans ey.symm).trans (U8.nibble_eq y 0))
  case sysStatus s =>
    obtain ⟨x, hx, ex⟩ := check_eq_inv (g := id) v1
    obtain ⟨y, hy, ey⟩ := check_eq_inv (g := id) v2
    intro k hk
    obtain rfl := at8_only0 hk
    rw [hx, hy]
    exact congrArg (fun z : BitVec 8 => some (z &&& _)) (ex.trans ey.symm)

/-- Two valid UMP buffers with the same value of a property agree on its bits. -/
theorem Fld.agree32 (f : Fld) (hd : f.dual = true) {b b' : List (BitVec 32)} {v : f.Ty}
    (h1 : f.read32 b = .ok v) (h2 : f.read32 b' = .ok v) (v1 : f.validate32 b = .ok ())
    (v2 : f.validate32 b' = .ok ()) : Agree f.umpBits.at b b' := by
  cases f <;> try cases hd
  case hybrid => exact umpRead_inj hd h1 h2
  case schema r u =>
    refine umpRead_inj ?_ h1 h2
    have : (r == .u4) = true := hd
    rw [this]; rfl
  case umpType s =>
    obtain ⟨x, hx, ex⟩ := check_eq_inv v1
    obtain ⟨y, hy, ey⟩ := check_eq_inv v2
    intro k hk
    obtain rfl := at32_only0 hk
    rw [hx, hy]
    show some _ = some _
    congr 1
    apply and_of_ext (k := 4) (s := 28) (show (0xF0000000#32 : BitVec 32) = _ by decide)
    exact (U32.nibble_eq x 0).symm.trans ((ex.trans ey.symm).trans (U32.nibble_eq y 0))
  case cvStatus s =>
    obtain ⟨x, hx, ex⟩ := check_eq_inv v1
    obtain ⟨y, hy, ey⟩ := check_eq_inv v2
    intro k hk
    obtain rfl := at32_only0 hk
    rw [hx, hy]
    show some _ = some _
    congr 1
    apply and_of_ext (k := 4) (s := 20) (show (0x00F00000#32 : BitVec 32) = _ by decide)
    exact (U32.nibble_eq x 2).symm.trans ((ex.trans ey.symm).trans (U32.nibble_eq y 2))
  case sysStatus s =>
    obtain ⟨x, hx, ex⟩ := check_eq_inv v1
    obtain ⟨y, hy, ey⟩ := check_eq_inv v2
    intro k hk
    obtain rfl := at32_only0 hk
    rw [hx, hy]
    show some _ = some _
    congr 1
    apply and_of_ext (k := 8) (s := 16) (show (0x00FF0000#32 : BitVec 32) = _ by decide)
    exact (U32.octet_eq x 1).symm.trans ((ex.trans ey.symm).trans (U32.octet_eq y 1))

theorem Fld.agree {m : Fmt} (f : Fld) (hd : f.dual = true) {b b' : Buf m} {v : f.Ty}
    (h1 : f.read m b = .ok v) (h2 : f.read m b' = .ok v) (v1 : f.validate m b = .ok ())
    (v2 : f.validate m b' = .ok ()) : Agree (f.bits m) b b' := by
  cases m with
  | ump => exact agree32 f hd h1 h2 v1 v2
  | bytes => exact agree8 f hd h1 h2 v1 v2

theorem usedBits_bit {m : Fmt} {ps : List (String × Fld)} {i k : Nat}
    (h : (usedBits m ps i).getLsbD k = true) : ∃ p ∈ ps, (p.2.bits m i).getLsbD k = true := by
  induction ps with
  | nil => simp [usedBits] at h
  | cons p ps ih =>
    have h : (p.2.bits m i ||| usedBits m ps i).getLsbD k = true := h
    rw [BitVec.getLsbD_or, Bool.or_eq_true] at h
    rcases h with h | h
    · exact ⟨p, List.mem_cons_self, h⟩
    · obtain ⟨q, h1, h2⟩ := ih h
      exact ⟨q, List.mem_cons_of_mem _ h1, h2⟩

/-- A buffer built from zeros that agrees with `a` on all the bits of the properties is `a`
with all other bits cleared. -/
theorem eq_masked {m : Fmt} {ps : List (String × Fld)} {size : Nat} {a b : Buf m}
    (h0 : SameOff (usedBits m ps) (List.replicate size 0) b)
    (hg : ∀ p ∈ ps, Agree (p.2.bits m) b a) {i : Nat} (hi : i < size) (ha : i < a.length) :
    b[i]? = some (a[i] &&& usedBits m ps i) := by
  have hl : b.length = size := by have := h0.1; simpa using this.symm
  have hb : i < b.length := by omega
  rw [List.getElem?_eq_getElem hb]
  congr 1
  have e := h0.2 i (by simpa using hi) hb
  rw [List.getElem_replicate] at e
  apply BitVec.eq_of_getLsbD_eq
  intro k hk
  have e := congrArg (fun y : BitVec m.w => y.getLsbD k) e
  simp only [BitVec.getLsbD_and, BitVec.getLsbD_not, hk, decide_true, Bool.true_and,
    BitVec.ofNat_eq_ofNat, BitVec.getLsbD_zero, Bool.false_and] at e ⊢
  cases hu : (usedBits m ps i).getLsbD k with
  | false => rw [hu] at e; simp at e; simp [e]
  | true =>
    obtain ⟨p, hp, hpk⟩ := usedBits_bit hu
    have := hg p hp i (by intro h; rw [h] at hpk; simp at hpk)
    rw [List.getElem?_eq_getElem hb, List.getElem?_eq_getElem ha] at this
    have := congrArg (fun y : BitVec m.w => y.getLsbD k) (Option.some.inj this)
    simp only [BitVec.getLsbD_and, hpk, Bool.and_true] at this
    simp [this]

end Midi2
