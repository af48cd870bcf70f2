import Verif.Lemmas.LazyApi
import Verif.Lemmas.Seated
import Verif.Props.Sysex

/-! Calls on any message that can be spliced. -/

namespace Midi2

namespace Sx

section
variable {k : Sx} {dbg fixed : Bool} {b : Buf .ump} {g : BitVec 4} {l : List k.Byte}

theorem partlyFilled_setGroup (k : Sx) (b : Buf .ump) (g : BitVec 4) (i : Nat) :
    k.layout.PartlyFilled (k.setGroup b g) i ↔ k.layout.PartlyFilled b i := by
  unfold SysexLayout.PartlyFilled
  rw [fieldAt_setGroup k b g i 0 4 (.inl rfl), fieldAt_setGroup k b g i 8 4 (.inr (.inl rfl)),
    fieldAt_setGroup k b g i 12 4 (.inr (.inr (.inl rfl)))]

theorem layout_tidy_setGroup (k : Sx) (b : Buf .ump) (g : BitVec 4) (q : Nat)
    (h : k.layout.Tidy q b) : k.layout.Tidy q (k.setGroup b g) := by
  intro i hq hl hp
  rw [setGroup_length] at hl
  exact h i hq hl ((partlyFilled_setGroup k b g _).mp hp)

theorem behind_setGroup (k : Sx) (b : Buf .ump) (g : BitVec 4) (fixed : Bool) (n : Nat)
    (h : k.layout.Behind fixed n b) : k.layout.Behind fixed n (k.setGroup b g) := by
  unfold SysexLayout.Behind at h ⊢
  cases fixed with
  | true => exact layout_tidy_setGroup k b g _ h
  | false =>
    intro i hq hl ht hp
    rw [setGroup_length] at hl
    refine h i hq hl (fun i' hi' => ?_) ((partlyFilled_setGroup k b g _).mp hp)
    rw [← ht i' hi', fieldAt_setGroup k b g _ 0 4 (.inl rfl)]

theorem Ready.setGroup (R : k.Ready dbg fixed b g l) (g' : BitVec 4) :
    k.Ready dbg fixed (k.setGroup b g') g' l := by
  obtain ⟨sizes, M, hs⟩ := R.message
  obtain ⟨h1, h2, h3, -, -⟩ := C27_set_group k b _ sizes M g'
  exact ⟨h1, by rw [h3]; exact R.payload, sizes, h2, hs.compactable,
    fun e => behind_setGroup k b g' fixed _ (hs.behind e)⟩

theorem SameHeads.octets {b' : Buf .ump} (h : SameHeads k b b') (i r : Nat) (hr : r < 2) :
    octetAt b' (16 * i + r) = octetAt b (16 * i + r) := by
  have ho := k.two_le_off
  rw [k.four_stride i]
  exact h.head _ r (by omega)

theorem SameHeads.tidyFrom {b' : Buf .ump} (h : SameHeads k b b') {q : Nat}
    (t : TidyFrom k q b) : TidyFrom k q b' := by
  intro i o0 o1 hq hl h0 h1
  have e0 := h.octets i 0 (by omega)
  rw [Nat.add_zero] at e0
  rw [e0] at h0
  rw [h.octets i 1 (by omega)] at h1
  exact t i o0 o1 hq (by rw [← h.1]; exact hl) h0 h1

theorem SameHeads.steadyFrom {b' : Buf .ump} (h : SameHeads k b b') {N : Option Nat} {q : Nat}
    (t : SteadyFrom k N q b) : SteadyFrom k N q b' := by
  cases N with
  | some => exact h.tidyFrom t
  | none =>
    intro i o1 hq hl ht h1
    rw [h.octets i 1 (by omega)] at h1
    refine t i o1 hq (by rw [← h.1]; exact hl) (fun i' hi' => ?_) h1
    obtain ⟨o, h2, h3⟩ := ht i' hi'
    have := h.octets i' 0 (by omega)
    rw [Nat.add_zero] at this
    exact ⟨o, by rw [← this]; exact h2, h3⟩

theorem Ready.setByte (R : k.Ready dbg fixed b g l) (v : k.Byte) {i : Nat} (hi : i < l.length) :
    ∃ b', k.setByte b v i = .ok b' ∧ k.Ready dbg fixed b' g (l.set i v) ∧ SameHeads k b b' := by
  obtain ⟨sizes, M, hs⟩ := R.message
  obtain ⟨g', hg, V⟩ := isMessage_valid M
  have hgg : g' = g := BitVec.eq_of_toNat_eq hg
  subst hgg
  have hpay : V.payload = l := by
    have := R.payload
    rw [V.frame.payloadList_eq] at this
    injection this
  obtain ⟨b', e1, e2, e3, -⟩ := V.setByte v (i := i) (by rw [hpay]; exact hi)
  have V' := e2.valid V
  have hp' : V'.payload = l.set i v := by
    unfold Valid.payload
    rw [e3, hpay]
  have hsz : (List.range sizes.length).map (fun j => sizes.getD j 0) = sizes := by
    apply List.ext_getElem
    · simp
    · intro j h1 h2
      simp only [List.getElem_map, List.getElem_range, List.getD_eq_getElem?_getD]
      rw [List.getElem?_eq_getElem h2]; rfl
  have M' := valid_iff.mp V'
  rw [hsz] at M'
  refine ⟨b', e1, ⟨?_, ?_, sizes, M', hs.compactable, fun e => ?_⟩, e2⟩
  · obtain ⟨w, e1, _, e3, _⟩ := V'.word V'.pos
    unfold Sx.group at'
    rw [Nat.mul_zero] at e1
    rw [e1]
    show Res.ok _ = _
    rw [e3]
  · rw [V'.frame.payloadList_eq]
    exact congrArg Res.ok hp'
  · cases fixed with
    | true => exact (behind_iff (N := some 0)).mp (e2.steadyFrom ((behind_iff (N := some 0)).mpr (hs.behind e)))
    | false => exact (behind_iff (N := none)).mp (e2.steadyFrom ((behind_iff (N := none)).mpr (hs.behind e)))

theorem Strict.ready {I : Buf .ump → Prop} {N : Option Nat} (S : Strict k dbg I g N b l) :
    k.Ready dbg N.isSome b g l :=
  Loose.ready (N := N) ⟨⟨_, S.packed⟩, S.whole⟩

theorem exec_ready (R : k.Ready dbg false b g l) (c : SxCall k) (hr : c.InRange l) :
    ∃ b', c.exec dbg b = .ok b' ∧
      k.Ready dbg false b' (c.apply (g, l)).1 (c.apply (g, l)).2 := by
  have hI := inv_true k (fixed := false)
  obtain ⟨b0, c1, c2⟩ := Ready.start (N := none) R (by simp)
  have hsplice : ∀ (d : Src k.Byte) (rb re : Bound), rb.first ≤ re.last l.length →
      re.last l.length ≤ l.length → ∃ b', (k.ops dbg .vec).splice b d rb re = .ok b' ∧
        k.Ready dbg false b' g (spliced l rb.first (re.last l.length) d.items) := by
    intro d rb re h1 h2
    obtain ⟨b', e, S⟩ := splice_vec k hI c1 c2 d rb re h1 h2
    exact ⟨b', e, S.ready⟩
  have happ : ∀ d : Src k.Byte, ∃ b', ((k.ops dbg .vec).insert b d l.length) = .ok b' ∧
      k.Ready dbg false b' g (l ++ d.items) := by
    intro d
    have := hsplice d (.included l.length) (.excluded l.length) (Nat.le_refl _) (Nat.le_refl _)
    rw [spliced_append] at this
    exact this
  have hps : (k.ops dbg .vec).payloadSize b = .ok l.length := R.size
  cases c with
  | setGroup g' => exact ⟨_, rfl, R.setGroup g'⟩
  | setPayload d =>
    obtain ⟨b', e, S⟩ := setPayload_vec k dbg hI (group_word R.group) trivial d
    exact ⟨b', e, S.ready⟩
  | splicePayload d rb re => exact hsplice d rb re hr.1 hr.2
  | insertPayload d i =>
    exact hsplice d (.included i) (.excluded i) (Nat.le_refl _) hr
  | appendPayload d =>
    obtain ⟨b', e, S'⟩ := happ d
    refine ⟨b', ?_, S'⟩
    show (k.ops dbg .vec).append b d = _
    unfold SxOps.append
    rw [hps]; exact e
  | appendByte v =>
    obtain ⟨b', e, S'⟩ := happ ⟨[v], 1, some 1⟩
    refine ⟨b', ?_, S'⟩
    show (k.ops dbg .vec).appendByte b v = _
    unfold SxOps.appendByte
    rw [hps]; exact e
  | setPayloadByte i v =>
    obtain ⟨b', e1, e2, -⟩ := R.setByte v hr
    exact ⟨b', e1, e2⟩

end

theorem ready_history {k : Sx} {dbg : Bool} :
    ∀ (cs : List (SxCall k)) (b : Buf .ump) (s : BitVec 4 × List k.Byte),
      SxCall.AllInRange cs s → k.Ready dbg false b s.1 s.2 →
      ∃ b', SxCall.execAll dbg cs b = .ok b' ∧
        k.Ready dbg false b' (SxCall.applyAll cs s).1 (SxCall.applyAll cs s).2 := by
  intro cs
  induction cs with
  | nil => intro b s _ S; exact ⟨b, rfl, S⟩
  | cons c cs ih =>
    intro b s hr S
    obtain ⟨b1, e1, S1⟩ := exec_ready S c hr.1
    obtain ⟨b2, e2, S2⟩ := ih b1 (c.apply s) hr.2 S1
    refine ⟨b2, ?_, S2⟩
    show (c.exec dbg b >>= fun b => SxCall.execAll dbg cs b) = _
    rw [e1]
    exact e2

/-- What a buffer of fixed size must be in builds with debug assertions so that the payload can be
set as well. -/
def Calm (k : Sx) (dbg : Bool) (b : Buf .ump) : Prop := dbg = true → k.layout.Tidy k.layout.words b

theorem Strict.calm {k : Sx} {dbg : Bool} {I : Buf .ump → Prop} {g : BitVec 4} {n : Nat}
    {b : Buf .ump} {l : List k.Byte} (S : Strict k dbg I g (some n) b l) : k.Calm dbg b :=
  fun e => tidyFrom_iff.mp (Tidy.from (S.whole.steady e) _)

theorem try_exec_ready {k : Sx} {dbg : Bool} {b : Buf .ump} {n : Nat} (hlen : b.length = n)
    {g : BitVec 4} {l : List k.Byte} (R : k.Ready dbg true b g l) (C : k.Calm dbg b)
    (c : SxTryCall k) (hr : c.InRange l) :
    ∃ b', c.exec dbg b = .ok (b', (c.apply n (g, l)).2) ∧ b'.length = n ∧ k.Calm dbg b' ∧
      k.Ready dbg true b' (c.apply n (g, l)).1.1 (c.apply n (g, l)).1.2 := by
  have hI := inv_true k (fixed := true)
  have hn : k.stride ≤ n := by rw [← hlen]; exact R.stride_le
  obtain ⟨b0, c1, c2⟩ := Ready.start (N := some n) R (by simp [hlen])
  have wrap : ∀ {b' : Buf .ump} {g' : BitVec 4} {l' : List k.Byte},
      Strict k dbg (fun _ => True) g' (some n) b' l' →
      b'.length = n ∧ k.Calm dbg b' ∧ k.Ready dbg true b' g' l' :=
    fun S => ⟨S.whole.fixed n rfl, S.calm, S.ready⟩
  -- one shape for all calls which replace the payload
  have fin : ∀ (c : SxTryCall k) (x : Res (Buf .ump × Option Error)), c.exec dbg b = x →
      (∀ g', c ≠ .setGroup g') →
      ((k.stride * k.count (c.wanted l).length ≤ n → ∃ b', x = .ok (b', none) ∧
          b'.length = n ∧ k.Calm dbg b' ∧ k.Ready dbg true b' g (c.wanted l)) ∧
        (n < k.stride * k.count (c.wanted l).length → ∃ b', x = .ok (b', some .bufferOverflow) ∧
          b'.length = n ∧ k.Calm dbg b' ∧ k.Ready dbg true b' g [])) →
      ∃ b', c.exec dbg b = .ok (b', (c.apply n (g, l)).2) ∧ b'.length = n ∧ k.Calm dbg b' ∧
        k.Ready dbg true b' (c.apply n (g, l)).1.1 (c.apply n (g, l)).1.2 := by
    intro c x hx hc h
    unfold SxTryCall.apply
    simp only
    rw [wireLength_eq]
    by_cases hf : k.stride * k.count (c.wanted l).length ≤ n
    · obtain ⟨b', e1, e2⟩ := h.1 hf
      rw [if_pos (by omega), hx]
      refine ⟨b', e1, ?_⟩
      cases c <;> first | exact absurd rfl (hc _) | exact e2
    · obtain ⟨b', e1, e2⟩ := h.2 (by omega)
      rw [if_neg (by omega), hx]
      refine ⟨b', e1, ?_⟩
      cases c <;> first | exact absurd rfl (hc _) | exact e2
  have both : ∀ {x : Res (Buf .ump × Option Error)} {m : List k.Byte},
      ((k.stride * k.count m.length ≤ n → ∃ b', x = .ok (b', none) ∧
          Strict k dbg (fun _ => True) g (some n) b' m) ∧
        (n < k.stride * k.count m.length → ∃ b', x = .ok (b', some .bufferOverflow) ∧
          Strict k dbg (fun _ => True) g (some n) b' [])) →
      ((k.stride * k.count m.length ≤ n → ∃ b', x = .ok (b', none) ∧
          b'.length = n ∧ k.Calm dbg b' ∧ k.Ready dbg true b' g m) ∧
        (n < k.stride * k.count m.length → ∃ b', x = .ok (b', some .bufferOverflow) ∧
          b'.length = n ∧ k.Calm dbg b' ∧ k.Ready dbg true b' g [])) := by
    intro x m h
    refine ⟨fun hf => ?_, fun hf => ?_⟩
    · obtain ⟨b', e, S⟩ := h.1 hf
      exact ⟨b', e, wrap S⟩
    · obtain ⟨b', e, S⟩ := h.2 hf
      exact ⟨b', e, wrap S⟩
  have hfit : k.stride * k.count l.length ≤ n := by
    obtain ⟨sizes, M, -⟩ := R.message
    obtain ⟨g', hg, V⟩ := isMessage_valid M
    have hv : V.payload = l := by
      have := R.payload
      rw [V.frame.payloadList_eq] at this
      injection this
    have h1 := V.length_le
    rw [hv] at h1
    have := Nat.mul_le_mul_left k.stride ((k.count_le_iff _ _ V.pos).mpr h1)
    have := V.len
    omega
  have hps : (k.ops dbg .fixed).payloadSize b = .ok l.length := R.size
  have hsplice := fun (d : Src k.Byte) (rb re : Bound) h1 h2 hh =>
    both (splice_fixed k hI hn c1 c2 d rb re h1 h2 hh)
  have hins : ∀ (d : Src k.Byte) (i : Nat), i ≤ l.length → _ := fun d i hi =>
    hsplice d (.included i) (.excluded i) (Nat.le_refl _) hi (.inl rfl)
  have happ := fun d : Src k.Byte => hins d l.length (Nat.le_refl _)
  cases c with
  | setGroup g' =>
    have e : (SxTryCall.setGroup g' : SxTryCall k).apply n (g, l) = ((g', l), none) := by
      unfold SxTryCall.apply
      rw [if_pos (by
        show k.layout.wireLength l.length ≤ 4 * n
        rw [wireLength_eq]; omega)]
      rfl
    rw [e]
    exact ⟨_, rfl, by rw [setGroup_length]; exact hlen,
      fun h => layout_tidy_setGroup k b g' _ (C h), R.setGroup g'⟩
  | setPayload d =>
    refine fin (.setPayload d) _ rfl (fun _ h => by cases h) ?_
    have := trySetPayload_fixed k hI (by omega) (group_word R.group) trivial
      (fun e => tidyFrom_iff.mpr (by have := C e; rwa [words_eq] at this)) d
    rw [hlen] at this
    exact both this
  | splicePayload d rb re =>
    refine fin (.splicePayload d rb re) _ rfl (fun _ h => by cases h) ?_
    refine hsplice d rb re hr.1 hr.2.1 ?_
    have he : d.upper.getD d.lower = d.estimate := by
      unfold Src.estimate
      cases d.upper <;> rfl
    rw [← he]
    exact (hr.2.2.imp_right Or.inl)
  | insertPayload d i =>
    exact fin (.insertPayload d i) _ rfl (fun _ h => by cases h) (hins d i hr)
  | appendPayload d =>
    refine fin (.appendPayload d) ((k.ops dbg .fixed).tryInsert b d l.length) ?_
      (fun _ h => by cases h) ?_
    · show (k.ops dbg .fixed).tryAppend b d = _
      unfold SxOps.tryAppend
      rw [hps]; rfl
    · have := happ d
      rw [spliced_append] at this
      exact this
  | appendByte v =>
    refine fin (.appendByte v) ((k.ops dbg .fixed).tryInsert b ⟨[v], 1, some 1⟩ l.length) ?_
      (fun _ h => by cases h) ?_
    · show (k.ops dbg .fixed).tryAppendByte b v = _
      unfold SxOps.tryAppendByte
      rw [hps]; rfl
    · have := happ ⟨[v], 1, some 1⟩
      rw [spliced_append] at this
      exact this
  | setPayloadByte i v =>
    obtain ⟨b', e1, e2, e3⟩ := R.setByte v hr
    refine fin (.setPayloadByte i v) (.ok (b', none)) ?_ (fun _ h => by cases h) ⟨?_, ?_⟩
    · show (k.setByte b v i).bind _ = _
      rw [e1]; rfl
    · intro _
      exact ⟨b', rfl, e3.1.trans hlen,
        fun e => tidyFrom_iff.mp (e3.tidyFrom (tidyFrom_iff.mpr (C e))), e2⟩
    · intro h
      have : (SxTryCall.setPayloadByte i v : SxTryCall k).wanted l = l.set i v := rfl
      rw [this, List.length_set] at h
      omega

theorem try_ready_history {k : Sx} {dbg : Bool} {n : Nat} :
    ∀ (cs : List (SxTryCall k)) (b : Buf .ump) (s : BitVec 4 × List k.Byte),
      SxTryCall.AllInRange n cs s → b.length = n → k.Ready dbg true b s.1 s.2 → k.Calm dbg b →
      ∃ b', SxTryCall.execAll dbg cs b = .ok (b', (SxTryCall.applyAll n cs s).2) ∧
        b'.length = n ∧ k.Calm dbg b' ∧
        k.Ready dbg true b' (SxTryCall.applyAll n cs s).1.1 (SxTryCall.applyAll n cs s).1.2 := by
  intro cs
  induction cs with
  | nil => intro b s _ hl R C; exact ⟨b, rfl, hl, C, R⟩
  | cons c cs ih =>
    intro b s hr hl R C
    obtain ⟨b1, e1, l1, C1, R1⟩ := try_exec_ready hl R C c hr.1
    obtain ⟨b2, e2, S2⟩ := ih b1 (c.apply n s).1 hr.2 l1 R1 C1
    refine ⟨b2, ?_, S2⟩
    show (c.exec dbg b >>= fun x => _) = _
    rw [e1]
    simp only [Res.ok_bind]
    rw [e2]
    rfl

end Sx

end Midi2
