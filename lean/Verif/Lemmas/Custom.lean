import Verif.Lemmas.SpliceCap
import Verif.Lemmas.SysexHold
import Verif.Lemmas.SysexBytes
import Verif.Spec.Custom

/-! System exclusive messages over user-written buffers. -/

namespace Midi2

namespace Sx

/-- No property of the whole buffer. -/
def Any (_ : Buf .ump) : Prop := True

theorem inv_any (k : Sx) {fixed : Bool} : Inv k Any fixed :=
  ⟨fun _ _ => trivial, fun _ _ => trivial, fun _ _ _ _ _ _ => trivial⟩

theorem octetAt_kept {b b1 : Buf .ump} {n a : Nat} (hk : ∀ i, i < n → i < b.length → b1[i]? = b[i]?)
    (h1 : a < 4 * b.length) (h2 : a < 4 * n) : octetAt b1 a = octetAt b a := by
  unfold octetAt
  rw [hk _ (by omega) (by omega)]

/-- A resize that the buffer grants. -/
theorem tryResize_granted (k : Sx) {m : Mem} {dbg : Bool} {g : BitVec 4} {b b1 : Buf .ump} {n : Nat}
    (hm : m.resize b (k.stride * k.count n) = (b1, true)) (hl : b1.length = k.stride * k.count n)
    (hk : ∀ i, i < k.stride * k.count n → i < b.length → b1[i]? = b[i]?)
    (hg : ∃ w, b[0]? = some w ∧ U32.nibble w 1 = g) :
    ∃ b' l', k.tryResize m b n = .ok (b', none) ∧ Strict k dbg Any g none b' l' ∧ l'.length = n ∧
      b'.length = k.stride * k.count n ∧
      ∀ {p : Nat} {l : List k.Byte}, Packed k g p b l → l'.take l.length = l.take n := by
  obtain ⟨w, hw, hwg⟩ := hg
  have hb : 0 < b.length := by
    rcases Nat.eq_zero_or_pos b.length with h | h
    · rw [List.getElem?_eq_none (by omega)] at hw; cases hw
    · exact h
  have hpos : 0 < k.stride * k.count n := Nat.mul_pos k.stride_pos (k.count_pos n)
  obtain ⟨b', e1, r⟩ := k.tryResize_fine (m := m) (b := b) (n := n) hm (Nat.le_of_eq hl.symm)
    ⟨w, by rw [hk 0 hpos hb]; exact hw, hwg⟩
  obtain ⟨l', f1, f2, f3, f4⟩ := r.packed (Nat.le_of_eq hl.symm)
  subst f1
  refine ⟨b', l', e1, ⟨f2, ⟨?_, trivial, ?_⟩, f4, ?_⟩, rfl, r.len.trans hl, ?_⟩
  · intro _; exact (r.tidy (tidyFrom_end (by omega))).steady _
  · intro _ h; cases h
  · intro _; rw [r.len, hl]
  · intro p l P
    apply keep_bytes P f2
    intro i h1 h2
    rw [f3 i h1, octetAt_kept hk (P.addr_lt h2)]
    exact k.addr_lt_iff.mpr (by have := k.le_count l'.length; omega)

/-- A resize that the buffer refuses. -/
theorem tryResize_refused (k : Sx) {m : Mem} {b : Buf .ump} {n : Nat} {g : BitVec 4}
    (hm : m.resize b (k.stride * k.count n) = (b, false)) (hb : k.stride ≤ b.length)
    (hg : ∃ w, b[0]? = some w ∧ U32.nibble w 1 = g) :
    ∃ b', k.tryResize m b n = .ok (b', some (b.length / k.stride * k.cap)) ∧
      Resized k g (b.length / k.stride) (b.length / k.stride * k.cap) b b' := by
  have hpos : 0 < b.length / k.stride := Nat.div_pos hb k.stride_pos
  have hcm := k.count_mul (b.length / k.stride) hpos
  obtain ⟨cs', e1, e2, e3⟩ := rewrite_spec k (b.length / k.stride * k.cap) g b
    (by rw [hcm]; exact Nat.mul_div_le _ _) hg
  rw [hcm] at e1 e2 e3
  refine ⟨_, ?_, e3⟩
  unfold tryResize
  rw [k.bufferSize_eq]
  simp only [hm, Bool.false_eq_true, if_false]
  rw [e1, e2]
  rfl

/-! ### Resizable buffers -/

theorem growLaws (k : Sx) (dbg : Bool) (g : BitVec 4)
    {f : (w : Nat) → List (BitVec w) → Nat → List (BitVec w)} (hf : Grows (f 32)) :
    SxLawsAll (k.ops dbg (.grow f)) (Loose k dbg Any g none) (Strict k dbg Any g none) none where
  weaken h := ⟨⟨_, h.packed⟩, h.whole⟩
  bound := by
    intro b l _ c hc; cases hc
  size := by
    rintro b l ⟨⟨p, P⟩, W⟩
    exact P.payloadSize_eq
  write := by
    rintro b l v i ⟨⟨p, P⟩, W⟩ hi
    obtain ⟨b', e1, e2, e3⟩ := P.write v hi
    exact ⟨b', e1, ⟨p, e3⟩, e2.whole (inv_any k) W⟩
  same := by
    rintro b l i ⟨⟨p, P⟩, W⟩
    exact ⟨b, P.move_same (fun e => (W.steady e).isCompact) i, ⟨p, P⟩, W⟩
  up := by
    rintro b l tail to ⟨⟨p, P⟩, W⟩ h1 h2
    obtain ⟨b', e1, e2, e3⟩ := P.move_up (fun e => (W.steady e).isCompact) h1 h2
    exact ⟨b', e1, ⟨p, e3⟩, e2.whole (inv_any k) W⟩
  down := by
    rintro b l tail to ⟨⟨p, P⟩, W⟩ h1 h2
    obtain ⟨b', e1, e2, e3⟩ := P.move_down (fun e => (W.steady e).isCompact) h1 h2
    exact ⟨b', e1, ⟨p, e3⟩, e2.whole (inv_any k) W⟩
  resize := by
    rintro b l n ⟨⟨p, P⟩, W⟩ _
    obtain ⟨b', l', e, S, h1, _, h2⟩ := k.tryResize_granted (m := .grow f) (dbg := dbg) (b := b) (n := n)
      rfl (hf.length _ _) (fun i h1 h2 => hf.keeps _ _ _ h1 h2) P.group_eq
    exact ⟨b', l', e, S, h1, h2 P⟩
  full := by
    intro b l n c _ h; cases h

theorem splice_grow (k : Sx) {dbg : Bool} {g : BitVec 4}
    {f : (w : Nat) → List (BitVec w) → Nat → List (BitVec w)} (hf : Grows (f 32))
    {b b0 : Buf .ump} {l : List k.Byte} (hc : k.compact b = .ok b0)
    (h : Loose k dbg Any g none b0 l) (d : Src k.Byte) (rb re : Bound)
    (h1 : rb.first ≤ re.last l.length) (h2 : re.last l.length ≤ l.length) :
    ∃ b', (k.ops dbg (.grow f)).splice b d rb re = .ok b' ∧
      Strict k dbg Any g none b' (spliced l rb.first (re.last l.length) d.items) := by
  have hcut := cut l rb.first (re.last l.length) h1
  have hlen : ((l.take (re.last l.length)).drop rb.first).length = re.last l.length - rb.first := by
    simp only [List.length_drop, List.length_take]; omega
  have L : SxLaws (k.ops dbg (.grow f)) _ _ _ none := (growLaws k dbg g hf).toLaws
  refine L.splice_spec (s := b) (s0 := b0) d rb re (l.take rb.first)
    ((l.take (re.last l.length)).drop rb.first) (l.drop (re.last l.length)) hc (by rw [← hcut]; exact h) ?_ ?_
  · rw [spliceBegin_eq, List.length_take]; omega
  · rw [← hcut, spliceEnd_eq, List.length_take, hlen]; omega

theorem setPayload_grow (k : Sx) (dbg : Bool) {g : BitVec 4}
    {f : (w : Nat) → List (BitVec w) → Nat → List (BitVec w)} (hf : Grows (f 32))
    {b : Buf .ump} (hg : ∃ w, b[0]? = some w ∧ U32.nibble w 1 = g) (d : Src k.Byte) :
    ∃ b', (k.ops dbg (.grow f)).setPayload b d = .ok b' ∧ Strict k dbg Any g none b' d.items := by
  obtain ⟨b1, l1, e1, S, h1, _⟩ := k.tryResize_granted (m := .grow f) (dbg := dbg) (b := b) (n := 0)
      rfl (hf.length _ _) (fun i h1 h2 => hf.keeps _ _ _ h1 h2) hg
  have : l1 = [] := List.eq_nil_of_length_eq_zero h1
  subst this
  obtain ⟨b0, c1, c2⟩ := Loose.compact (inv_any k) (N := none) ⟨⟨_, S.packed⟩, S.whole⟩
  obtain ⟨b', e2, e3⟩ := splice_grow k hf c1 c2 d (.included 0) (.excluded 0)
    (by simp [Bound.first, Bound.last]) (by simp [Bound.last])
  refine ⟨b', ?_, ?_⟩
  · unfold SxOps.setPayload
    show ((k.tryResize (.grow f) b 0) >>= fun x => _) = _
    rw [e1]
    exact e2
  · have : spliced ([] : List k.Byte) (Bound.included 0).first ((Bound.excluded 0).last ([] : List k.Byte).length) d.items = d.items := by
      simp [spliced]
    rwa [this] at e3

theorem grow_exec {k : Sx} {dbg : Bool} {f : (w : Nat) → List (BitVec w) → Nat → List (BitVec w)}
    (hf : Grows (f 32)) {b : Buf .ump} {g : BitVec 4} {l : List k.Byte}
    (S : Strict k dbg Any g none b l) (c : SxCall k) (hr : c.InRange l) :
    ∃ b', c.execOn (.grow f) dbg b = .ok b' ∧
      Strict k dbg Any (c.apply (g, l)).1 none b' (c.apply (g, l)).2 := by
  obtain ⟨b0, c1, c2⟩ := Loose.compact (inv_any k) (N := none) ⟨⟨_, S.packed⟩, S.whole⟩
  have hsplice : ∀ (d : Src k.Byte) (rb re : Bound), rb.first ≤ re.last l.length →
      re.last l.length ≤ l.length → ∃ b', (k.ops dbg (.grow f)).splice b d rb re = .ok b' ∧
        Strict k dbg Any g none b' (spliced l rb.first (re.last l.length) d.items) :=
    fun d rb re h1 h2 => splice_grow k hf c1 c2 d rb re h1 h2
  have happ : ∀ d : Src k.Byte, ∃ b', ((k.ops dbg (.grow f)).insert b d l.length) = .ok b' ∧
      Strict k dbg Any g none b' (l ++ d.items) := by
    intro d
    have := hsplice d (.included l.length) (.excluded l.length) (Nat.le_refl _) (Nat.le_refl _)
    have e : spliced l (Bound.included l.length).first ((Bound.excluded l.length).last l.length) d.items =
        l ++ d.items := by simp [spliced, Bound.first, Bound.last]
    rw [e] at this
    exact this
  have hps : (k.ops dbg (.grow f)).payloadSize b = .ok l.length := S.packed.payloadSize_eq
  cases c with
  | setGroup g' => exact ⟨_, rfl, S.setGroup g' (fun _ => trivial)⟩
  | setPayload d =>
    obtain ⟨w, hw, hwg⟩ := S.packed.group_eq
    exact setPayload_grow k dbg hf ⟨w, hw, hwg⟩ d
  | splicePayload d rb re => exact hsplice d rb re hr.1 hr.2
  | insertPayload d i =>
    exact hsplice d (.included i) (.excluded i) (Nat.le_refl _) hr
  | appendPayload d =>
    obtain ⟨b', e, S'⟩ := happ d
    refine ⟨b', ?_, S'⟩
    show (k.ops dbg (.grow f)).append b d = _
    unfold SxOps.append
    rw [hps]; exact e
  | appendByte v =>
    obtain ⟨b', e, S'⟩ := happ ⟨[v], 1, some 1⟩
    refine ⟨b', ?_, S'⟩
    show (k.ops dbg (.grow f)).appendByte b v = _
    unfold SxOps.appendByte
    rw [hps]; exact e
  | setPayloadByte i v => exact S.setByte (inv_any k) v hr

theorem grow_history {k : Sx} {dbg : Bool} {f : (w : Nat) → List (BitVec w) → Nat → List (BitVec w)}
    (hf : Grows (f 32)) :
    ∀ (cs : List (SxCall k)) (b : Buf .ump) (s : BitVec 4 × List k.Byte),
      SxCall.AllInRange cs s → Strict k dbg Any s.1 none b s.2 →
      ∃ b', SxCall.execAllOn (.grow f) dbg cs b = .ok b' ∧
        Strict k dbg Any (SxCall.applyAll cs s).1 none b' (SxCall.applyAll cs s).2 := by
  intro cs
  induction cs with
  | nil => intro b s _ S; exact ⟨b, rfl, S⟩
  | cons c cs ih =>
    intro b s hr S
    obtain ⟨b1, e1, S1⟩ := grow_exec hf S c hr.1
    obtain ⟨b2, e2, S2⟩ := ih b1 (c.apply s) hr.2 S1
    refine ⟨b2, ?_, S2⟩
    show (c.execOn (.grow f) dbg b >>= fun b => SxCall.execAllOn (.grow f) dbg cs b) = _
    rw [e1]
    exact e2

/-! ### Buffers with a capacity -/

/-- While splicing. -/
def CapLoose (k : Sx) (dbg : Bool) (g : BitVec 4) (cap : Nat) (b : Buf .ump) (l : List k.Byte) : Prop :=
  Loose k dbg Any g none b l ∧ b.length ≤ cap

/-- After an operation. -/
def CapStrict (k : Sx) (dbg : Bool) (g : BitVec 4) (cap : Nat) (b : Buf .ump) (l : List k.Byte) : Prop :=
  Strict k dbg Any g none b l ∧ b.length ≤ cap

theorem capLaws (k : Sx) (dbg : Bool) (g : BitVec 4) {cap : Nat} (hcap : k.stride ≤ cap)
    {f : (w : Nat) → List (BitVec w) → Nat → List (BitVec w) × Bool} (hf : TryGrows (f 32) cap) :
    SxLawsCap (k.ops dbg (.tryGrow f)) (CapLoose k dbg g cap) (CapStrict k dbg g cap)
      (cap / k.stride * k.cap) where
  weaken h := ⟨⟨⟨_, h.1.packed⟩, h.1.whole⟩, h.2⟩
  bound := by
    rintro b l ⟨⟨⟨p, P⟩, W⟩, hc⟩
    have h2 := P.len
    have h3 := P.hi
    have : p ≤ cap / k.stride := by
      rw [Nat.le_div_iff_mul_le k.stride_pos, Nat.mul_comm]; omega
    have : k.cap * p ≤ k.cap * (cap / k.stride) := Nat.mul_le_mul_left _ this
    have := Nat.mul_comm k.cap (cap / k.stride)
    omega
  size := by
    rintro b l ⟨⟨⟨p, P⟩, W⟩, hc⟩
    exact P.payloadSize_eq
  write := by
    rintro b l v i ⟨⟨⟨p, P⟩, W⟩, hc⟩ hi
    obtain ⟨b', e1, e2, e3⟩ := P.write v hi
    exact ⟨b', e1, ⟨⟨p, e3⟩, e2.whole (inv_any k) W⟩, by rw [e2.1]; exact hc⟩
  same := by
    rintro b l i ⟨⟨⟨p, P⟩, W⟩, hc⟩
    exact ⟨b, P.move_same (fun e => (W.steady e).isCompact) i, ⟨⟨p, P⟩, W⟩, hc⟩
  up := by
    rintro b l tail to ⟨⟨⟨p, P⟩, W⟩, hc⟩ h1 h2
    obtain ⟨b', e1, e2, e3⟩ := P.move_up (fun e => (W.steady e).isCompact) h1 h2
    exact ⟨b', e1, ⟨⟨p, e3⟩, e2.whole (inv_any k) W⟩, by rw [e2.1]; exact hc⟩
  down := by
    rintro b l tail to ⟨⟨⟨p, P⟩, W⟩, hc⟩ h1 h2
    obtain ⟨b', e1, e2, e3⟩ := P.move_down (fun e => (W.steady e).isCompact) h1 h2
    exact ⟨b', e1, ⟨⟨p, e3⟩, e2.whole (inv_any k) W⟩, by rw [e2.1]; exact hc⟩
  resize := by
    rintro b l n ⟨⟨⟨p, P⟩, W⟩, hc⟩ hn
    have hle := (k.limit_iff hcap).mp hn
    obtain ⟨b', l', e, S, h1, hl, h2⟩ := k.tryResize_granted (m := .tryGrow f) (dbg := dbg) (b := b) (n := n)
      (b1 := (f 32 b (k.stride * k.count n)).1) (by
        show f 32 b (k.stride * k.count n) = _
        rw [← hf.ok b _ hle]) (hf.length _ _ hle) (fun i h1 h2 => hf.keeps _ _ _ hle h1 h2) P.group_eq
    exact ⟨b', l', e, ⟨S, by omega⟩, h1, h2 P⟩
  full := by
    rintro b l n ⟨⟨⟨p, P⟩, W⟩, hc⟩ hn
    have hlt : cap < k.stride * k.count n := by
      have := k.limit_iff (n := n) hcap
      omega
    have hb : k.stride ≤ b.length := by
      have := P.frame.le_mul P.pos
      omega
    have hpos : 0 < b.length / k.stride := Nat.div_pos hb k.stride_pos
    have hcm := k.count_mul (b.length / k.stride) hpos
    obtain ⟨b', e1, r'⟩ := k.tryResize_refused (m := .tryGrow f) (b := b) (n := n)
      (hf.full _ _ hlt) hb P.group_eq
    obtain ⟨l', f1, f2, f3, f4⟩ := Resized.packed (k := k) (g := g)
      (n := b.length / k.stride * k.cap) (b := b) (b' := b') (by rw [hcm]; exact r')
      (by rw [hcm]; exact Nat.mul_div_le _ _)
    have hle : l.length ≤ l'.length := by
      rw [f1]
      have h2 := P.len
      have h3 := P.hi
      have : p ≤ b.length / k.stride := by
        rw [Nat.le_div_iff_mul_le k.stride_pos, Nat.mul_comm]; omega
      have : k.cap * p ≤ k.cap * (b.length / k.stride) := Nat.mul_le_mul_left _ this
      have := Nat.mul_comm k.cap (b.length / k.stride)
      omega
    refine ⟨b', l', by rw [f1]; exact e1, ⟨⟨⟨_, f2⟩, ⟨?_, trivial, ?_⟩⟩, ?_⟩, hle, ?_⟩
    · intro _; exact (r'.tidy (tidyFrom_whole b)).steady _
    · intro x h; cases h
    · rw [r'.len]; exact hc
    · rw [keep_bytes P f2 fun i h1 _ => f3 i (by omega)]
      exact List.take_of_length_le hle

/-- Splices over a buffer with a capacity: all or nothing. -/
theorem splice_cap (k : Sx) {dbg : Bool} {g : BitVec 4} {cap : Nat} (hcap : k.stride ≤ cap)
    {f : (w : Nat) → List (BitVec w) → Nat → List (BitVec w) × Bool} (hf : TryGrows (f 32) cap)
    {b b0 : Buf .ump} {l : List k.Byte} (hc : k.compact b = .ok b0)
    (h : CapLoose k dbg g cap b0 l) (d : Src k.Byte) (rb re : Bound)
    (h1 : rb.first ≤ re.last l.length) (h2 : re.last l.length ≤ l.length)
    (hh : rb.first = re.last l.length ∨ d.items.length = d.estimate) :
    (∃ b', (k.ops dbg (.tryGrow f)).trySplice b d rb re = .ok (b', none) ∧
      CapStrict k dbg g cap b' (spliced l rb.first (re.last l.length) d.items)) ∨
    ((d.items.length = d.estimate →
        cap < k.stride * k.count (spliced l rb.first (re.last l.length) d.items).length) ∧
      ∃ b', (k.ops dbg (.tryGrow f)).trySplice b d rb re = .ok (b', some .bufferOverflow) ∧
        CapStrict k dbg g cap b' []) := by
  have hcut := cut l rb.first (re.last l.length) h1
  have hlen : ((l.take (re.last l.length)).drop rb.first).length = re.last l.length - rb.first := by
    simp only [List.length_drop, List.length_take]; omega
  have L := capLaws k dbg g hcap hf
  have key := L.trySplice_spec (s := b) (s0 := b0) d rb re (l.take rb.first)
    ((l.take (re.last l.length)).drop rb.first) (l.drop (re.last l.length)) hc (by rw [← hcut]; exact h)
    (by rw [spliceBegin_eq, List.length_take]; omega)
    (by rw [← hcut, spliceEnd_eq, List.length_take, hlen]; omega)
    (hh.imp (fun hh => List.eq_nil_of_length_eq_zero (by omega)) id)
  rcases key with h | ⟨h, h'⟩
  · exact .inl h
  · refine .inr ⟨fun hx => ?_, h'⟩
    have := h hx
    have hi := k.limit_iff (n := (spliced l rb.first (re.last l.length) d.items).length) hcap
    unfold spliced at hi ⊢
    omega

theorem setPayload_cap (k : Sx) {dbg : Bool} {g : BitVec 4} {cap : Nat} (hcap : k.stride ≤ cap)
    {f : (w : Nat) → List (BitVec w) → Nat → List (BitVec w) × Bool} (hf : TryGrows (f 32) cap)
    {b : Buf .ump} {l : List k.Byte} (h : CapLoose k dbg g cap b l) (d : Src k.Byte) :
    (∃ b', (k.ops dbg (.tryGrow f)).trySetPayload b d = .ok (b', none) ∧
      CapStrict k dbg g cap b' d.items) ∨
    ((d.items.length = d.estimate → cap < k.stride * k.count d.items.length) ∧
      ∃ b', (k.ops dbg (.tryGrow f)).trySetPayload b d = .ok (b', some .bufferOverflow) ∧
        CapStrict k dbg g cap b' []) := by
  have L := capLaws k dbg g hcap hf
  obtain ⟨b1, l1, e1, S, h1, _⟩ := L.resize 0 h (Nat.zero_le _)
  have : l1 = [] := List.eq_nil_of_length_eq_zero h1
  subst this
  obtain ⟨b0, c1, c2⟩ := Loose.compact (inv_any k) (N := none) ⟨⟨_, S.1.packed⟩, S.1.whole⟩
  have hl0 : b0.length ≤ cap := by
    obtain ⟨b0', e0, _, e3, _⟩ := S.1.packed.valid.compact_eq (fun _ j hj => by
      unfold fillSize; rw [if_neg (by omega)])
    rw [c1] at e0
    cases e0
    have := S.2
    omega
  have key := splice_cap k hcap hf c1 ⟨c2, hl0⟩ d (.included 0) (.excluded 0)
    (by simp [Bound.first, Bound.last]) (by simp [Bound.last]) (.inl rfl)
  have hsp : spliced ([] : List k.Byte) (Bound.included 0).first ((Bound.excluded 0).last ([] : List k.Byte).length) d.items = d.items := by
    simp [spliced]
  rw [hsp] at key
  have hun : (k.ops dbg (.tryGrow f)).trySetPayload b d =
      (k.ops dbg (.tryGrow f)).trySplice b1 d (.included 0) (.excluded 0) := by
    unfold SxOps.trySetPayload
    rw [e1]; rfl
  rw [hun]
  exact key

theorem capLoose_compact {k : Sx} {dbg : Bool} {g : BitVec 4} {cap : Nat} {b : Buf .ump}
    {l : List k.Byte} (S : CapStrict k dbg g cap b l) :
    ∃ b0, k.compact b = .ok b0 ∧ CapLoose k dbg g cap b0 l := by
  obtain ⟨b0, c1, c2⟩ := Loose.compact (inv_any k) (N := none) ⟨⟨_, S.1.packed⟩, S.1.whole⟩
  obtain ⟨b0', e0, _, e3, _⟩ := S.1.packed.valid.compact_eq (fun _ j hj => by
    unfold fillSize; rw [if_neg (by omega)])
  rw [c1] at e0
  cases e0
  refine ⟨b0, c1, c2, ?_⟩
  have := S.2
  omega

/-- One call, whatever the iterators announce. -/
theorem cap_exec {k : Sx} {dbg : Bool} {cap : Nat} (hcap : k.stride ≤ cap)
    {f : (w : Nat) → List (BitVec w) → Nat → List (BitVec w) × Bool} (hf : TryGrows (f 32) cap)
    {b : Buf .ump} {g : BitVec 4} {l : List k.Byte} (S : CapStrict k dbg g cap b l) (c : SxTryCall k)
    (hr : c.InRange l) (hh : c.ExactSplice) :
    (∃ b', c.execOn (.tryGrow f) dbg b = .ok (b', none) ∧
      CapStrict k dbg (c.group g) cap b' (c.wanted l)) ∨
    ((c.ExactHint → cap < k.stride * k.count (c.wanted l).length) ∧
      ∃ b', c.execOn (.tryGrow f) dbg b = .ok (b', some .bufferOverflow) ∧
        CapStrict k dbg (c.group g) cap b' []) := by
  obtain ⟨b0, c1, c2⟩ := capLoose_compact S
  have he : ∀ d : Src k.Byte, d.upper.getD d.lower = d.items.length → d.items.length = d.estimate := by
    intro d h
    unfold Src.estimate
    cases hd : d.upper <;> rw [hd] at h <;> exact h.symm
  have hsplice := fun (d : Src k.Byte) (rb re : Bound) h1 h2 hh =>
    splice_cap k hcap hf c1 c2 d rb re h1 h2 hh
  have hins : ∀ (d : Src k.Byte) (i : Nat), i ≤ l.length → _ := fun d i hi =>
    hsplice d (.included i) (.excluded i) (Nat.le_refl _) hi (.inl rfl)
  have hspl : ∀ d : Src k.Byte, spliced l (Bound.included l.length).first
      ((Bound.excluded l.length).last l.length) d.items = l ++ d.items := by
    intro d
    simp [spliced, Bound.first, Bound.last]
  have happ := fun d : Src k.Byte => hins d l.length (Nat.le_refl _)
  have hps : (k.ops dbg (.tryGrow f)).payloadSize b = .ok l.length := S.1.packed.payloadSize_eq
  cases c with
  | setGroup g' => exact .inl ⟨_, rfl, S.1.setGroup g' (fun _ => trivial), by
      rw [k.setGroup_length]; exact S.2⟩
  | setPayload d =>
    rcases setPayload_cap k hcap hf ⟨⟨⟨_, S.1.packed⟩, S.1.whole⟩, S.2⟩ d with h | ⟨h, h'⟩
    · exact .inl h
    · exact .inr ⟨fun hx => h (he d hx), h'⟩
  | splicePayload d rb re =>
    rcases hsplice d rb re hr.1 hr.2.1 (.inr (he d hh)) with h | ⟨h, h'⟩
    · exact .inl h
    · exact .inr ⟨fun hx => h (he d hx), h'⟩
  | insertPayload d i =>
    rcases hins d i hr with h | ⟨h, h'⟩
    · exact .inl h
    · exact .inr ⟨fun hx => h (he d hx), h'⟩
  | appendPayload d =>
    have key := happ d
    rw [hspl] at key
    have hun : (SxTryCall.appendPayload d).execOn (.tryGrow f) dbg b =
        (k.ops dbg (.tryGrow f)).tryInsert b d l.length := by
      show (k.ops dbg (.tryGrow f)).tryAppend b d = _
      unfold SxOps.tryAppend
      rw [hps]; rfl
    rw [hun]
    rcases key with h | ⟨h, h'⟩
    · exact .inl h
    · exact .inr ⟨fun hx => h (he d hx), h'⟩
  | appendByte v =>
    have key := happ ⟨[v], 1, some 1⟩
    rw [hspl] at key
    have hun : (SxTryCall.appendByte v).execOn (.tryGrow f) dbg b =
        (k.ops dbg (.tryGrow f)).tryInsert b ⟨[v], 1, some 1⟩ l.length := by
      show (k.ops dbg (.tryGrow f)).tryAppendByte b v = _
      unfold SxOps.tryAppendByte
      rw [hps]; rfl
    rw [hun]
    rcases key with h | ⟨h, h'⟩
    · exact .inl h
    · exact .inr ⟨fun _ => h rfl, h'⟩
  | setPayloadByte i v =>
    obtain ⟨b', e1, e2⟩ := S.1.setByte (inv_any k) v hr
    refine .inl ⟨b', ?_, e2, ?_⟩
    · show (k.setByte b v i).bind _ = _
      rw [e1]; rfl
    · have := e2.exact rfl
      have := S.1.exact rfl
      have := S.2
      rw [List.length_set] at *
      omega

theorem cap_history {k : Sx} {dbg : Bool} {cap : Nat} (hcap : k.stride ≤ cap)
    {f : (w : Nat) → List (BitVec w) → Nat → List (BitVec w) × Bool} (hf : TryGrows (f 32) cap) :
    ∀ (cs : List (SxTryCall k)) (b : Buf .ump) (s : BitVec 4 × List k.Byte),
      SxTryCall.AllInRange cap cs s → (∀ c ∈ cs, c.ExactHint) → CapStrict k dbg s.1 cap b s.2 →
      ∃ b', SxTryCall.execAllOn (.tryGrow f) dbg cs b = .ok (b', (SxTryCall.applyAll cap cs s).2) ∧
        CapStrict k dbg (SxTryCall.applyAll cap cs s).1.1 cap b' (SxTryCall.applyAll cap cs s).1.2 := by
  intro cs
  induction cs with
  | nil => intro b s _ _ S; exact ⟨b, rfl, S⟩
  | cons c cs ih =>
    intro b s hr hh S
    have step : ∃ b1, c.execOn (.tryGrow f) dbg b = .ok (b1, (c.apply cap s).2) ∧
        CapStrict k dbg (c.apply cap s).1.1 cap b1 (c.apply cap s).1.2 := by
      have hx := hh c (List.mem_cons_self ..)
      have ha : c.apply cap s = if k.stride * k.count (c.wanted s.2).length ≤ cap then
          ((c.group s.1, c.wanted s.2), none) else ((c.group s.1, []), some .bufferOverflow) := by
        unfold SxTryCall.apply
        simp only
        rw [wireLength_eq]
        by_cases hf' : k.stride * k.count (c.wanted s.2).length ≤ cap
        · rw [if_pos (by omega), if_pos hf']; cases c <;> rfl
        · rw [if_neg (by omega), if_neg hf']; cases c <;> rfl
      rcases cap_exec hcap hf S c hr.1 (by cases c <;> first | exact hx | trivial) with
        ⟨b1, e1, S1⟩ | ⟨h, b1, e1, S1⟩
      · have hle : k.stride * k.count (c.wanted s.2).length ≤ cap := by
          have := S1.1.exact rfl
          have := S1.2
          omega
        rw [ha, if_pos hle]
        exact ⟨b1, e1, S1⟩
      · rw [ha, if_neg (by have := h hx; omega)]
        exact ⟨b1, e1, S1⟩
    obtain ⟨b1, e1, S1⟩ := step
    obtain ⟨b2, e2, S2⟩ := ih b1 (c.apply cap s).1 hr.2
      (fun c hc => hh c (List.mem_cons_of_mem _ hc)) S1
    refine ⟨b2, ?_, S2⟩
    show (c.execOn (.tryGrow f) dbg b >>= fun x => _) = _
    rw [e1]
    simp only [Res.ok_bind]
    rw [e2]
    rfl

end Sx

namespace Sxb

theorem grows_eq {w : Nat} {f : List (BitVec w) → Nat → List (BitVec w)} (hf : Grows f)
    (b : List (BitVec w)) (n : Nat) : f b n = b.take n ++ (f b n).drop b.length := by
  apply List.ext_getElem?
  intro i
  have hl := hf.length b n
  rw [List.getElem?_append, List.length_take, List.getElem?_drop, List.getElem?_take]
  by_cases h : i < n
  · by_cases h' : i < b.length
    · rw [if_pos (by omega), if_pos h]
      exact hf.keeps b n i h h'
    · rw [if_neg (by omega)]
      congr 1; omega
  · rw [List.getElem?_eq_none (by omega)]
    split
    · rfl
    · rw [List.getElem?_eq_none (by omega)]

/-- What growth adds is below `0x80`. -/
theorem grown_septets {f : List (BitVec 8) → Nat → List (BitVec 8)} (h7 : GrowsSeptets f)
    (b : List (BitVec 8)) (n : Nat) : ∃ q : List (BitVec 7), (f b n).drop b.length = q.map e := by
  have key : ∀ l : List (BitVec 8), (∀ v ∈ l, v.toNat < 128) → ∃ q : List (BitVec 7), l = q.map e := by
    intro l
    induction l with
    | nil => intro _; exact ⟨[], rfl⟩
    | cons v l ih =>
      intro h
      obtain ⟨q, hq⟩ := ih fun x hx => h x (List.mem_cons_of_mem _ hx)
      obtain ⟨w, hw, _⟩ := u7New_ok (h v (List.mem_cons_self ..))
      exact ⟨w :: q, by rw [List.map_cons, hw, ← hq]⟩
  apply key
  intro v hv
  obtain ⟨i, hi⟩ := List.mem_iff_getElem?.mp hv
  rw [List.getElem?_drop] at hi
  exact h7 b n (b.length + i) v (by omega) hi

/-- The message and nothing else. -/
def Exact (s : Buf .bytes) (l : List (BitVec 7)) : Prop := s = raw (l.map e) []

theorem resizeGrow_exact {f : List (BitVec 8) → Nat → List (BitVec 8)} (hf : Grows f)
    (h7 : GrowsSeptets f) (l r : List (BitVec 7)) (n : Nat) :
    ∃ l' : List (BitVec 7), resizeGrow f (raw (l.map e) (r.map e)) n = .ok (raw (l'.map e) []) ∧
      l'.length = n ∧ l'.take l.length = l.take n := by
  obtain ⟨q, hq⟩ := grown_septets h7 (raw (l.map e) (r.map e)) (n + 2)
  have hlen := hf.length (raw (l.map e) (r.map e)) (n + 2)
  have heq := grows_eq hf (raw (l.map e) (r.map e)) (n + 2)
  rw [hq] at heq
  have hql : q.length = n + 2 - (l.length + r.length + 2) := by
    have : ((f (raw (l.map e) (r.map e)) (n + 2)).drop (raw (l.map e) (r.map e)).length).length = q.length := by
      rw [hq, List.length_map]
    rw [List.length_drop, hlen, length_raw_map] at this
    exact this.symm
  unfold resizeGrow
  rw [payloadSize_raw (end_notin l), List.length_map]
  simp only [Res.ok_bind]
  rcases Nat.lt_or_ge l.length n with h | h
  · rw [if_pos h, heq]
    have e0 : (raw (l.map e) (r.map e)).take (n + 2) ++ q.map e =
        raw (l.map e) ((r.take (n - l.length) ++ q).map e) := by
      unfold raw
      rw [List.take_succ_cons, List.take_append, List.take_of_length_le (by simp; omega),
        List.length_map, show n + 1 - l.length = (n - l.length) + 1 by omega, List.take_succ_cons]
      simp [List.map_take]
    have hl' : (r.take (n - l.length) ++ q).length = n - l.length := by
      rw [List.length_append, List.length_take]; omega
    have em := erase_raw (l.map e) ((r.take (n - l.length) ++ q).map e)
    rw [List.length_map] at em
    rw [e0, em]
    simp only [Res.ok_bind]
    rw [show n + 2 - 1 = n + 1 by omega, modify_end _ (by simp; omega), join_map, ← List.map_take]
    refine ⟨(l ++ 0 :: (r.take (n - l.length) ++ q)).take n, ?_, ?_, ?_⟩
    · congr 2
      exact List.drop_eq_nil_of_le (by simp; omega)
    · simp only [List.length_take, List.length_append, List.length_cons]; omega
    · rw [List.take_take, Nat.min_eq_left (by omega), List.take_left, List.take_of_length_le (by omega)]
  · rw [if_neg (by omega), heq]
    have hq0 : q = [] := List.eq_nil_of_length_eq_zero (by omega)
    subst hq0
    refine ⟨l.take n, ?_, by simp; omega, by rw [List.take_take, Nat.min_eq_right (by omega)]⟩
    have e0 : (raw (l.map e) (r.map e)).take (n + 2) =
        startByte :: ((l.map e ++ endByte :: r.map e).take (n + 1)) := by
      unfold raw; simp
    simp only [List.map_nil, List.append_nil]
    rw [e0, show n + 2 - 1 = n + 1 by omega, modify_end _ (by simp; omega)]
    congr 1
    rw [List.take_take, Nat.min_eq_left (by omega), List.take_append_of_le_length (by simp; omega),
      ← List.map_take]
    congr 1
    exact List.drop_eq_nil_of_le (by simp; omega)

theorem growLaws {f : (w : Nat) → List (BitVec w) → Nat → List (BitVec w)} (hf : Grows (f 8))
    (h7 : GrowsSeptets (f 8)) : SxLawsAll (ops (.grow f)) (Clean none) Exact none where
  weaken h := ⟨[], h, fun _ h => by cases h⟩
  bound := by
    intro s l _ c hc; cases hc
  size h := (laws none).size h
  write v i h hi := (laws none).write v i h hi
  same i h := (laws none).same i h
  up tail to h h1 h2 := (laws none).up tail to h h1 h2
  down tail to h h1 h2 := (laws none).down tail to h h1 h2
  resize := by
    rintro s l n ⟨r, rfl, _⟩ _
    obtain ⟨l', e1, h1, h2⟩ := resizeGrow_exact hf h7 l r n
    refine ⟨_, l', ?_, rfl, h1, h2⟩
    show (do return (← resizeGrow (f 8) _ n, none) : Res _) = _
    rw [e1]; rfl
  full := by
    intro s l n c _ h; cases h

theorem splice_grow {f : (w : Nat) → List (BitVec w) → Nat → List (BitVec w)} (hf : Grows (f 8))
    (h7 : GrowsSeptets (f 8)) (l : List (BitVec 7)) (d : Src (BitVec 7)) (rb re : Bound)
    (h1 : rb.first ≤ re.last l.length) (h2 : re.last l.length ≤ l.length) :
    (ops (.grow f)).splice (raw (l.map e) []) d rb re =
      .ok (raw ((spliced l rb.first (re.last l.length) d.items).map e) []) := by
  have hcut := Sx.cut l rb.first (re.last l.length) h1
  have hlen : ((l.take (re.last l.length)).drop rb.first).length = re.last l.length - rb.first := by
    simp only [List.length_drop, List.length_take]; omega
  have L := (growLaws hf h7).toLaws
  obtain ⟨b', e1, e2⟩ := L.splice_spec (s := raw (l.map e) []) (s0 := raw (l.map e) []) d rb re
    (l.take rb.first) ((l.take (re.last l.length)).drop rb.first) (l.drop (re.last l.length)) rfl
    (by rw [← hcut]; exact ⟨[], rfl, fun _ h => by cases h⟩)
    (by rw [Sx.spliceBegin_eq, List.length_take]; omega)
    (by rw [← hcut, Sx.spliceEnd_eq, List.length_take, hlen]; omega)
  rw [e1, e2]
  rfl

end Sxb

end Midi2
