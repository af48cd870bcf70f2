import Verif.Lemmas.UsizeFits

/-! # Small operands: splicing -/

namespace Midi2

/-- `o` (exact arithmetic) and `o'` (checked arithmetic) do the same as long as the numbers are
at most `R`; `Start` holds before a call and `Small` while it runs; a failed `resize` reports
`C`, and one for more than `C` fails. -/
structure SxOps.Fits {S β : Type} (o o' : SxOps S β) (Start Small : S → Prop) (P R : Nat)
    (C : Option Nat) : Prop where
  small : ∀ {s}, Start s → Small s
  compact : ∀ {s}, Start s → (o.compact s).Under (o'.compact s) Start
  payloadSize : ∀ {s}, Start s → (o.payloadSize s).Under (o'.payloadSize s) fun n => n ≤ P
  moveTail : ∀ {s i j}, Small s → i ≤ R → j ≤ R →
    (o.moveTail s i j).Under (o'.moveTail s i j) Small
  writeDatum : ∀ {s v i}, Small s → i ≤ R →
    (o.writeDatum s v i).Under (o'.writeDatum s v i) Small
  resize : ∀ {s n}, Small s → n ≤ R → (o.resize s n).Under (o'.resize s n) fun r =>
    Small r.1 ∧ match r.2 with
      | some sz => C = some sz
      | none => ∀ c, C = some c → n ≤ c
  reset : ∀ {s}, Start s → (o.resize s 0).Under (o'.resize s 0) fun r => Start r.1

namespace SxOps.Fits

variable {S β : Type} {o o' : SxOps S β} {Start Small : S → Prop} {P R : Nat} {C : Option Nat}
  {w : Nat}

theorem fill (F : Fits o o' Start Small P R C) (hw : R < 2 ^ w) (begin est : Nat) (l : List β)
    (s : S) (n : Nat) (hs : Small s) (hn : begin + n + l.length ≤ R) :
    (o.fillU .unbounded begin est l s n).Under (o'.fillU (.checked w) begin est l s n)
      fun r => Small r.1 ∧ r.2.2.1 + r.2.1.length = n + l.length := by
  induction l generalizing s n with
  | nil => exact .ok ⟨hs, rfl⟩
  | cons v rest ih =>
    simp only [List.length_cons] at hn
    refine .ite (fun _ => .bind (Arith.fits_add (by omega)) fun i hi =>
      .bind (F.writeDatum hs (by omega)) fun s hs =>
      .bind (Arith.fits_add (by omega)) fun m hm => ?_) fun _ => .ok ⟨hs, rfl⟩
    subst hm
    refine (ih s (n + 1) hs (by omega)).weaken fun r h => ⟨h.1, ?_⟩
    rw [h.2, List.length_cons]
    omega

theorem firstGrow (F : Fits o o' Start Small P R C) (hw : R < 2 ^ w) (s : S)
    (end' initial sp est : Nat) (hs : Small s) (h1 : end' + est ≤ R) (h2 : est + initial ≤ R) :
    (o.firstGrowU .unbounded s end' initial sp est).Under
      (o'.firstGrowU (.checked w) s end' initial sp est) fun r => Small r.1 ∧
        (r.2 = est ∨ sp ≤ initial ∧ ∃ c, C = some c ∧ r.2 = c - (initial - sp)) := by
  refine .bind (Arith.fits_add (by omega)) fun e he => .bind (Arith.fits_sub ..) fun g hg =>
    .ite (fun _ => .bind (Arith.fits_add (by omega)) fun n hn => .bind (Arith.fits_sub ..)
      fun m hm => .bind (F.resize hs (by omega)) fun r hr => ?_) fun _ => .ok ⟨hs, .inl rfl⟩
  obtain ⟨s', _ | sz⟩ := r
  · exact .ok ⟨hr.1, .inl rfl⟩
  · exact .bind (Arith.fits_sub ..) fun kept hk => .ok ⟨hr.1, .inr ⟨hk.1, sz, hr.2, by rw [hk.2]⟩⟩

theorem growMore (F : Fits o o' Start Small P R C) (hw : R < 2 ^ w) (s : S)
    (begin tail initial sp est : Nat) (hs : Small s) (h1 : begin + est ≤ R)
    (h2 : est + initial ≤ R) (hC : ∀ c, C = some c → begin + c ≤ R) (ht : tail < begin + est) :
    (o.growMoreU .unbounded s begin tail initial sp est).Under
      (o'.growMoreU (.checked w) s begin tail initial sp est) fun r => Small r.1 ∧ r.2.2 ≤ R ∧
        (r.2.1 = est ∧ sp ≤ est + initial ∧ (∀ c, C = some c → est + initial - sp ≤ c) ∨
          sp ≤ initial ∧ ∃ c, C = some c ∧ r.2.1 = c - (initial - sp)) := by
  refine .bind (Arith.fits_add (by omega)) fun e he => ?_
  subst he
  refine .ite (fun _ => .bind (Arith.fits_add (by omega)) fun n hn => .bind (Arith.fits_sub ..)
      fun m hm => .bind (F.resize hs (by omega)) fun r hr => ?_) fun hn => absurd ht hn
  subst hn
  obtain ⟨s', _ | sz⟩ := r
  · exact .ok ⟨hr.1, h1, .inl ⟨rfl, hm.1, fun c hc => by rw [← hm.2]; exact hr.2 c hc⟩⟩
  · have := hC sz hr.2
    exact .bind (Arith.fits_sub ..) fun kept hk => .bind (Arith.fits_add (by omega)) fun t ht =>
      .bind (Arith.fits_sub ..) fun t' ht' =>
      .ok ⟨hr.1, by show t' ≤ R; omega, .inr ⟨hk.1, sz, hr.2, by rw [hk.2]⟩⟩

theorem mainLoop (F : Fits o o' Start Small P R C) (hw : R < 2 ^ w) {N begin initial sp : Nat}
    (hR : begin + (3 * N + 1) + initial ≤ R) (h4 : 4 * N + 2 < 2 ^ w)
    (hC : ∀ c, C = some c → begin + c ≤ R) (fuel : Nat) (s : S) (l : List β)
    (written est add tail : Nat) (hs : Small s) (hl : written + l.length = N)
    (ht : tail = begin + est) (htr : begin + est ≤ R) (ha : 1 ≤ add)
    (hm : add ≤ est + 1 ∨ add ≤ 2 * N + 1 ∧ sp ≤ initial ∧
      ∃ c, C = some c ∧ c ≤ est + (initial - sp)) :
    (o.mainLoopU .unbounded begin initial sp fuel s l written est add tail).Under
      (o'.mainLoopU (.checked w) begin initial sp fuel s l written est add tail) fun r =>
        match r with
        | .done s n t => Small s ∧ n ≤ N ∧ t ≤ R
        | .overflow s => Small s := by
  induction fuel generalizing s l written est add tail with
  | zero => exact .panic _ _
  | succ fuel ih =>
    refine .bind (F.fill hw begin est l s written hs (by omega)) fun r hr => ?_
    obtain ⟨s', l', n, ex⟩ := r
    simp only at hr
    obtain ⟨hs', hn⟩ := hr
    refine .ite (fun _ => .ok ⟨hs', by omega, by omega⟩) fun _ => ?_
    refine .bind (P := fun _ => n = est) (.rfl' _ fun x hx => ?_) fun _ hne => ?_
    · unfold Res.assert at hx
      split at hx
      · rename_i h; exact eq_of_beq h
      · cases hx
    refine .ite (fun _ => .ok ⟨hs', by omega, by omega⟩) fun hne' => ?_
    have hpos : 0 < l'.length := by
      cases l' with
      | nil => exact absurd rfl hne'
      | cons => simp
    have hest : est + 1 ≤ N := by omega
    have hadd : add ≤ 2 * N + 1 := by
      obtain h | h := hm
      · omega
      · exact h.1
    refine .bind (Arith.fits_add (by omega)) fun e he => ?_
    subst he
    refine .bind (F.growMore hw s' begin tail initial sp (est + add) hs' (by omega) (by omega) hC
      (by omega)) fun r hr => ?_
    obtain ⟨s2, e, to⟩ := r
    simp only at hr
    obtain ⟨hs2, hto, hcase⟩ := hr
    have he : begin + e ≤ R := by
      obtain ⟨rfl, _⟩ | ⟨_, c, hc, rfl⟩ := hcase
      · omega
      · have := hC c hc; omega
    refine .bind (F.moveTail hs2 (by omega) hto) fun s3 hs3 => ?_
    refine .bind (Arith.fits_add (by omega)) fun t ht' => .bind (Arith.fits_mul (by omega))
      fun a' ha' => .ite (fun _ => .ok hs3) fun hlt => ?_
    refine ih s3 l' n e a' t hs3 (by omega) ht' he (by omega) ?_
    obtain ⟨h1, h2, h3⟩ | ⟨h1, c, hc, h2⟩ := hcase
    · obtain hm | ⟨_, hsp, c, hc, hm⟩ := hm
      · exact .inl (by omega)
      · have := h3 c hc
        omega
    · obtain hm | ⟨_, _, c', hc', hm⟩ := hm
      · exact .inr ⟨by omega, h1, c, hc, by omega⟩
      · rw [hc] at hc'; cases hc'
        omega

theorem begin {n : Nat} (rb : Bound) (h : rb.Within n) (hw : n < 2 ^ w) :
    (rb.spliceBeginU .unbounded).Under (rb.spliceBeginU (.checked w)) fun i => i ≤ n := by
  cases rb with
  | included i => exact .ok (Nat.le_of_lt h)
  | excluded i =>
    have : i < n := h
    exact (Arith.fits_add (by omega)).weaken fun x hx => by omega
  | unbounded => exact .ok (Nat.zero_le _)

theorem stop {n initial : Nat} (re : Bound) (h : re.Within n) (hi : initial ≤ n) (hw : n < 2 ^ w) :
    (re.spliceEndU .unbounded initial).Under (re.spliceEndU (.checked w) initial)
      fun i => i ≤ n := by
  cases re with
  | excluded i => exact .ok (Nat.le_of_lt h)
  | included i =>
    have : i < n := h
    exact (Arith.fits_add (by omega)).weaken fun x hx => by omega
  | unbounded => exact .ok hi

theorem trySpliceDetail (F : Fits o o' Start Small P R C) (hw : R < 2 ^ w) {M Q : Nat}
    (hP : P ≤ Q) (hR : 2 * Q + 3 * M + 2 ≤ R) (hC : ∀ c, C = some c → Q + c ≤ R) (s : S)
    (d : Src β) (rb re : Bound) (hs : Start s) (hb : d.items.length ≤ M) (he : d.estimate ≤ M)
    (hQ : M ≤ Q) (hrb : rb.Within Q) (hre : re.Within Q) :
    (o.trySpliceDetailU .unbounded s d rb re).Under
      (o'.trySpliceDetailU (.checked w) s d rb re) fun r => Small r.1 := by
  refine .bind (F.compact hs) fun s hs => .bind (F.payloadSize hs) fun initial hi =>
    .bind (begin rb hrb (by omega)) fun b hb' => .bind (stop re hre (by omega) (by omega))
    fun e he' => .bind (Arith.fits_sub ..) fun sp hsp => ?_
  refine .bind (F.firstGrow hw s e initial sp d.estimate (F.small hs) (by omega) (by omega))
    fun r hr => ?_
  obtain ⟨s1, est⟩ := r
  simp only at hr
  obtain ⟨hs1, hest⟩ := hr
  have hbe : e + est ≤ R := by
    obtain rfl | ⟨_, c, hc, rfl⟩ := hest
    · omega
    · have := hC c hc; omega
  clear hest
  refine .bind (Arith.fits_add (by omega)) fun x hx => .bind (Arith.fits_sub ..) fun tail ht => ?_
  refine .bind (F.moveTail hs1 (by omega) (by omega)) fun s2 hs2 => ?_
  refine .bind (F.mainLoop (N := d.items.length) hw (by omega) (by omega)
    (fun c hc => by have := hC c hc; omega) _ s2 d.items 0 est 1 tail hs2 (Nat.zero_add _)
    (by omega) (by omega) (Nat.le_refl 1) (.inl (by omega))) fun r hr => ?_
  cases r with
  | overflow s => exact .ok hr
  | done s n t =>
    simp only at hr
    exact .bind (Arith.fits_add (by omega)) fun to hto =>
      .bind (F.moveTail hr.1 hr.2.2 (by omega)) fun s3 hs3 =>
      .bind (Arith.fits_add (by omega)) fun m hm => .bind (Arith.fits_sub ..) fun m' hm' =>
      .bind (F.resize hs3 (by omega)) fun r hr => .ok hr.1

end SxOps.Fits

/-- The bounds of the calls: `M` for the data and its size hint, `Q` for indices. -/
structure SxOps.FitsIn {S β : Type} (o o' : SxOps S β) (Start Small : S → Prop) (M Q w : Nat) :
    Prop where
  fits : ∃ P R C, SxOps.Fits o o' Start Small P R C ∧ R < 2 ^ w ∧ P < Q ∧
    2 * Q + 3 * M + 2 ≤ R ∧ ∀ c, C = some c → Q + c ≤ R
  le : M ≤ Q
  pos : 0 < M

namespace SxOps.FitsIn

variable {S β : Type} {o o' : SxOps S β} {Start Small : S → Prop} {M Q w : Nat}

theorem trySpliceDetail (H : FitsIn o o' Start Small M Q w) (s : S) (d : Src β) (rb re : Bound)
    (hs : Start s) (hb : d.items.length ≤ M) (he : d.estimate ≤ M) (hrb : rb.Within Q)
    (hre : re.Within Q) : (o.trySpliceDetailU .unbounded s d rb re).Under
      (o'.trySpliceDetailU (.checked w) s d rb re) fun r => Small r.1 := by
  obtain ⟨P, R, C, F, h1, h2, h3, h4⟩ := H.fits
  exact F.trySpliceDetail h1 (Nat.le_of_lt h2) h3 h4 s d rb re hs hb he H.le hrb hre

theorem splice (H : FitsIn o o' Start Small M Q w) (s : S) (d : Src β) (rb re : Bound)
    (hs : Start s) (hb : d.items.length ≤ M) (he : d.estimate ≤ M) (hrb : rb.Within Q)
    (hre : re.Within Q) : (o.spliceU .unbounded s d rb re).Under
      (o'.spliceU (.checked w) s d rb re) Small := by
  refine .bind (H.trySpliceDetail s d rb re hs hb he hrb hre) fun r hr => ?_
  obtain ⟨s, _ | e⟩ := r
  · exact .ok hr
  · exact .panic _ _

theorem trySplice (H : FitsIn o o' Start Small M Q w) (s : S) (d : Src β) (rb re : Bound)
    (hs : Start s) (hb : d.items.length ≤ M) (he : d.estimate ≤ M) (hrb : rb.Within Q)
    (hre : re.Within Q) : (o.trySpliceU .unbounded s d rb re).Under
      (o'.trySpliceU (.checked w) s d rb re) fun r => Small r.1 := by
  obtain ⟨P, R, C, F, h1, h2, h3, h4⟩ := H.fits
  refine .bind (H.trySpliceDetail s d rb re hs hb he hrb hre) fun r hr => ?_
  obtain ⟨s, _ | e⟩ := r
  · exact .ok hr
  · exact .bind (F.resize hr (Nat.zero_le _)) fun r hr => .ok hr.1

theorem insert (H : FitsIn o o' Start Small M Q w) (s : S) (d : Src β) (i : Nat)
    (hs : Start s) (hb : d.items.length ≤ M) (he : d.estimate ≤ M) (hi : i < Q) :
    (o.insertU .unbounded s d i).Under (o'.insertU (.checked w) s d i) Small :=
  H.splice s d _ _ hs hb he hi hi

theorem tryInsert (H : FitsIn o o' Start Small M Q w) (s : S) (d : Src β) (i : Nat)
    (hs : Start s) (hb : d.items.length ≤ M) (he : d.estimate ≤ M) (hi : i < Q) :
    (o.tryInsertU .unbounded s d i).Under (o'.tryInsertU (.checked w) s d i) fun r => Small r.1 :=
  H.trySplice s d _ _ hs hb he hi hi

theorem append (H : FitsIn o o' Start Small M Q w) (s : S) (d : Src β)
    (hs : Start s) (hb : d.items.length ≤ M) (he : d.estimate ≤ M) :
    (o.appendU .unbounded s d).Under (o'.appendU (.checked w) s d) Small := by
  obtain ⟨P, R, C, F, h1, h2, h3, h4⟩ := H.fits
  exact .bind (F.payloadSize hs) fun n hn => H.insert s d n hs hb he (by omega)

theorem tryAppend (H : FitsIn o o' Start Small M Q w) (s : S) (d : Src β)
    (hs : Start s) (hb : d.items.length ≤ M) (he : d.estimate ≤ M) :
    (o.tryAppendU .unbounded s d).Under (o'.tryAppendU (.checked w) s d) fun r => Small r.1 := by
  obtain ⟨P, R, C, F, h1, h2, h3, h4⟩ := H.fits
  exact .bind (F.payloadSize hs) fun n hn => H.tryInsert s d n hs hb he (by omega)

theorem appendByte (H : FitsIn o o' Start Small M Q w) (s : S) (v : β) (hs : Start s) :
    (o.appendByteU .unbounded s v).Under (o'.appendByteU (.checked w) s v) Small :=
  H.append s ⟨[v], 1, some 1⟩ hs H.pos H.pos

theorem tryAppendByte (H : FitsIn o o' Start Small M Q w) (s : S) (v : β) (hs : Start s) :
    (o.tryAppendByteU .unbounded s v).Under (o'.tryAppendByteU (.checked w) s v)
      fun r => Small r.1 :=
  H.tryAppend s ⟨[v], 1, some 1⟩ hs H.pos H.pos

theorem setPayload (H : FitsIn o o' Start Small M Q w) (s : S) (d : Src β)
    (hs : Start s) (hb : d.items.length ≤ M) (he : d.estimate ≤ M) :
    (o.setPayloadU .unbounded s d).Under (o'.setPayloadU (.checked w) s d) Small := by
  obtain ⟨P, R, C, F, h1, h2, h3, h4⟩ := H.fits
  refine .bind (F.reset hs) fun r hr => ?_
  obtain ⟨s, _ | e⟩ := r
  · exact H.insert s d 0 hr hb he (by omega)
  · exact .panic _ _

theorem trySetPayload (H : FitsIn o o' Start Small M Q w) (s : S) (d : Src β)
    (hs : Start s) (hb : d.items.length ≤ M) (he : d.estimate ≤ M) :
    (o.trySetPayloadU .unbounded s d).Under (o'.trySetPayloadU (.checked w) s d)
      fun r => Small r.1 := by
  obtain ⟨P, R, C, F, h1, h2, h3, h4⟩ := H.fits
  refine .bind (F.reset hs) fun r hr => ?_
  obtain ⟨s, _ | e⟩ := r
  · exact H.tryInsert s d 0 hr hb he (by omega)
  · exact .ok (F.small hr)

end SxOps.FitsIn

end Midi2
