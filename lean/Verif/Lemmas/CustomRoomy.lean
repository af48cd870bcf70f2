import Verif.Lemmas.Custom
import Verif.Lemmas.Construct

/-! System exclusive messages over buffers that are larger than requested. -/

namespace Midi2

namespace Sx

/-- As `Tidy`, also for a last group that is cut off. -/
def TidyAll (k : Sx) (b : Buf .ump) : Prop :=
  ∀ i o0 o1, octetAt b (16 * i) = some o0 → octetAt b (16 * i + 1) = some o1 →
    o0.extractLsb' 4 4 = k.typ → (o1.extractLsb' 4 4 = 0x1 ∨ o1.extractLsb' 4 4 = 0x2) →
    o1.extractLsb' 0 4 = k.fullNibble

theorem TidyAll.tidy {k : Sx} {b : Buf .ump} (h : TidyAll k b) : Tidy k b :=
  fun i o0 o1 _ => h i o0 o1

/-- What is carried along for the debug assertions and the parser, under the condition `z`. -/
def Paged (k : Sx) (z : Prop) (b : Buf .ump) : Prop := z → TidyAll k b ∧ ZeroId k b

theorem SameHeads.tidyAll {k : Sx} {b b' : Buf .ump} (h : SameHeads k b b') (t : TidyAll k b) :
    TidyAll k b' := by
  intro i o0 o1 h0 h1
  have ho := k.two_le_off
  rw [k.four_stride i] at h0 h1
  have e0 := h.head (4 / k.stride * i) 0 (by omega)
  have e1 := h.head (4 / k.stride * i) 1 (by omega)
  rw [Nat.add_zero] at e0
  rw [e0, ← k.four_stride i] at h0
  rw [e1, ← k.four_stride i] at h1
  exact t i o0 o1 h0 h1

theorem Resized.tidyAll {k : Sx} {g : BitVec 4} {p n : Nat} {b b' : Buf .ump}
    (r : Resized k g p n b b') (h : TidyAll k b) : TidyAll k b' := by
  intro i o0 o1 h0 h1 ht hs
  have e4 := k.four_stride i
  by_cases hi : 4 / k.stride * i < p
  · have a := r.oct1 _ hi
    rw [← e4, h1] at a
    have a := Option.some.inj a
    subst a
    unfold sizeOctet at *
    rw [append_hi] at hs
    rw [append_lo]
    unfold stat at hs
    unfold fillSize fullNibble
    split at hs
    · exact absurd hs (by decide)
    · split at hs
      · next hp hj => rw [if_neg (by omega)]
      · split at hs
        · exact absurd hs (by decide)
        · next hj => rw [if_neg hj]
  · have hle : k.stride * p ≤ k.stride * (4 / k.stride * i) := Nat.mul_le_mul_left _ (by omega)
    rw [r.beyond _ (by omega)] at h0 h1
    exact h i o0 o1 h0 h1 ht hs

theorem inv_paged (k : Sx) (z : Prop) : Inv k (Paged k z) true :=
  ⟨fun h t e => ⟨h.tidyAll (t e).1, h.zeroId (t e).2⟩,
    fun h t e => ⟨h.tidyAll (t e).1, h.zeroId (t e).2⟩, fun h => by cases h⟩

theorem tidyAll_setGroup {k : Sx} {b : Buf .ump} (g' : BitVec 4) (h : TidyAll k b) :
    TidyAll k (k.setGroup b g') := by
  intro i o0 o1 h0 h1 ht hs
  have e4 := k.four_stride i
  have hst := k.stride_pos
  rw [e4] at h0 h1
  have a0 := setGroup_octetAt k b g' (4 / k.stride * i) 0 (by omega)
  rw [Nat.add_zero] at a0
  rw [a0] at h0
  rw [setGroup_other k b g' _ (by rw [head_mod k _ 1 (by omega)]; omega), ← e4] at h1
  split at h0
  · rw [← e4] at h0
    cases h2 : octetAt b (16 * i) with
    | none => rw [h2] at h0; cases h0
    | some o =>
      rw [h2, Option.map_some, Option.some.injEq] at h0
      refine h i o o1 h2 h1 ?_ hs
      rw [← ht, ← h0, append_hi]
  · rw [← e4] at h0
    exact h i o0 o1 h0 h1 ht hs

theorem paged_setGroup {k : Sx} {z : Prop} {b : Buf .ump} (g' : BitVec 4) (h : Paged k z b) :
    Paged k z (k.setGroup b g') :=
  fun e => ⟨tidyAll_setGroup g' (h e).1, zeroId_setGroup g' (h e).2⟩

theorem tidyAll_grown {k : Sx} {f : Buf .ump → Nat → Buf .ump} (hz : AddsZeros f)
    {b : Buf .ump} (h : TidyAll k b) (n : Nat) : TidyAll k (f b n) := by
  intro i o0 o1 h0 h1 ht hs
  have hsplit : ∀ r, r < 2 → octetAt (f b n) (16 * i + r) = octetAt b (16 * i + r) ∨
      octetAt (f b n) (16 * i + r) = none ∨ (f b n)[4 * i]? = some 0 := by
    intro r hr
    have ha : (16 * i + r) / 4 = 4 * i := by omega
    cases hv : (f b n)[4 * i]? with
    | none =>
      right; left
      unfold octetAt
      rw [ha, hv]
      rfl
    | some v =>
      rcases hz b n (4 * i) v hv with rfl | hb
      · exact .inr (.inr rfl)
      · left
        unfold octetAt
        rw [ha, hv, hb]
  have hzero : (f b n)[4 * i]? ≠ some 0 := by
    intro hv
    unfold octetAt at h0
    rw [show 16 * i / 4 = 4 * i by omega, hv, show 16 * i % 4 = 0 by omega] at h0
    cases h0
    revert ht
    cases k <;> decide
  have k0 := hsplit 0 (by omega)
  rw [Nat.add_zero, h0] at k0
  have k1 := hsplit 1 (by omega)
  rw [h1] at k1
  rcases k0 with k0 | k0 | k0
  · rcases k1 with k1 | k1 | k1
    · exact h i o0 o1 k0.symm k1.symm ht hs
    · cases k1
    · exact absurd k1 hzero
  · cases k0
  · exact absurd k0 hzero

theorem octet_grown {f : Buf .ump → Nat → Buf .ump} (hz : AddsZeros f) {b : Buf .ump} {n a : Nat}
    {o : BitVec 8} (h : octetAt (f b n) a = some o) : o = 0 ∨ octetAt b a = some o := by
  unfold octetAt at h ⊢
  cases hv : (f b n)[a / 4]? with
  | none => rw [hv] at h; cases h
  | some v =>
    rw [hv] at h
    rcases hz b n _ v hv with rfl | hb
    · left
      have key : ∀ r, r < 4 → U32.octet 0 r = 0 := by decide
      rw [Option.map_some, key _ (by omega)] at h
      exact (Option.some.inj h).symm
    · right
      rw [hb]; exact h

theorem zeroId_grown {k : Sx} {f : Buf .ump → Nat → Buf .ump} (hz : AddsZeros f)
    {b : Buf .ump} (h : ZeroId k b) (n : Nat) : ZeroId k (f b n) := by
  refine ⟨fun hk j o ho => ?_, fun hk a o ho => ?_⟩
  · rcases octet_grown hz ho with h1 | h1
    · exact h1
    · exact h.1 hk j o h1
  · rcases octet_grown hz ho with h1 | h1
    · subst h1; decide
    · exact h.2 hk a o h1

theorem paged_grown {k : Sx} {z : Prop} {f : Buf .ump → Nat → Buf .ump} (hz : z → AddsZeros f)
    {b : Buf .ump} (h : Paged k z b) (n : Nat) : Paged k z (f b n) :=
  fun e => ⟨tidyAll_grown (hz e) (h e).1 n, zeroId_grown (hz e) (h e).2 n⟩

/-- While splicing. -/
def RoomyLoose (k : Sx) (dbg : Bool) (z : Prop) (g : BitVec 4) (b : Buf .ump) (l : List k.Byte) : Prop :=
  Loose k dbg (Paged k z) g (some b.length) b l

/-- After an operation. -/
def RoomyStrict (k : Sx) (dbg : Bool) (z : Prop) (g : BitVec 4) (b : Buf .ump) (l : List k.Byte) : Prop :=
  Strict k dbg (Paged k z) g (some b.length) b l

theorem RoomyStrict.of {k : Sx} {dbg : Bool} {z : Prop} {g : BitVec 4} {b : Buf .ump} {l : List k.Byte}
    (P : Packed k g (k.count l.length) b l) (hd : dbg = true → z) (hI : Paged k z b)
    (hz : ZeroPad k b l.length) :
    RoomyStrict k dbg z g b l :=
  ⟨P, ⟨fun e => (hI (hd e)).1.tidy, hI, fun _ h => by cases h; rfl⟩, hz, fun h => by cases h⟩

theorem Loose.roomy {k : Sx} {dbg : Bool} {z : Prop} {g : BitVec 4} {n : Nat} {b : Buf .ump} {l : List k.Byte}
    (h : Loose k dbg (Paged k z) g (some n) b l) : RoomyLoose k dbg z g b l :=
  ⟨h.1, ⟨h.2.steady, h.2.inv, fun _ e => by cases e; rfl⟩⟩

theorem tryResize_roomy (k : Sx) {dbg : Bool} {z : Prop} {g : BitVec 4} {b : Buf .ump} {n : Nat}
    {f : (w : Nat) → List (BitVec w) → Nat → List (BitVec w)} (hf : Roomy (f 32))
    (hd : dbg = true → z) (hz : z → AddsZeros (f 32)) (hI : Paged k z b)
    (hg : ∃ w, b[0]? = some w ∧ U32.nibble w 1 = g) :
    ∃ b' l', k.tryResize (.grow f) b n = .ok (b', none) ∧ RoomyStrict k dbg z g b' l' ∧
      l'.length = n ∧ ∀ {p : Nat} {l : List k.Byte}, Packed k g p b l → l'.take l.length = l.take n := by
  obtain ⟨w, hw, hwg⟩ := hg
  have hb : 0 < b.length := by
    rcases Nat.eq_zero_or_pos b.length with h | h
    · rw [List.getElem?_eq_none (by omega)] at hw; cases hw
    · exact h
  have hpos : 0 < k.stride * k.count n := Nat.mul_pos k.stride_pos (k.count_pos n)
  have hl := hf.length b (k.stride * k.count n)
  have hk := hf.keeps b (k.stride * k.count n)
  have hI1 : Paged k z (f 32 b (k.stride * k.count n)) := paged_grown hz hI _
  obtain ⟨b', e1, r⟩ := k.tryResize_fine (m := .grow f) (b := b) (n := n) rfl hl
    ⟨w, by rw [hk 0 hpos hb]; exact hw, hwg⟩
  obtain ⟨l', f1, f2, f3, f4⟩ := r.packed hl
  subst f1
  refine ⟨b', l', e1, .of f2 hd ((inv_paged k z).resized r hI1) f4, rfl, ?_⟩
  intro p l P
  apply keep_bytes P f2
  intro i h1 h2
  rw [f3 i h1, octetAt_kept hk (P.addr_lt h2)]
  exact k.addr_lt_iff.mpr (by have := k.le_count l'.length; omega)

theorem roomyLaws (k : Sx) (dbg : Bool) (z : Prop) (g : BitVec 4)
    {f : (w : Nat) → List (BitVec w) → Nat → List (BitVec w)} (hf : Roomy (f 32))
    (hd : dbg = true → z) (hz : z → AddsZeros (f 32)) :
    SxLawsAll (k.ops dbg (.grow f)) (RoomyLoose k dbg z g) (RoomyStrict k dbg z g) none where
  weaken h := ⟨⟨_, h.packed⟩, h.whole⟩
  bound := by
    intro b l _ c hc; cases hc
  size := by
    rintro b l ⟨⟨p, P⟩, W⟩
    exact P.payloadSize_eq
  write := by
    rintro b l v i ⟨⟨p, P⟩, W⟩ hi
    obtain ⟨b', e1, e2, e3⟩ := P.write v hi
    exact ⟨b', e1, Loose.roomy ⟨⟨p, e3⟩, e2.whole (inv_paged k z) W⟩⟩
  same := by
    rintro b l i ⟨⟨p, P⟩, W⟩
    exact ⟨b, P.move_same (fun e => (W.steady e).isCompact) i, ⟨p, P⟩, W⟩
  up := by
    rintro b l tail to ⟨⟨p, P⟩, W⟩ h1 h2
    obtain ⟨b', e1, e2, e3⟩ := P.move_up (fun e => (W.steady e).isCompact) h1 h2
    exact ⟨b', e1, Loose.roomy ⟨⟨p, e3⟩, e2.whole (inv_paged k z) W⟩⟩
  down := by
    rintro b l tail to ⟨⟨p, P⟩, W⟩ h1 h2
    obtain ⟨b', e1, e2, e3⟩ := P.move_down (fun e => (W.steady e).isCompact) h1 h2
    exact ⟨b', e1, Loose.roomy ⟨⟨p, e3⟩, e2.whole (inv_paged k z) W⟩⟩
  resize := by
    rintro b l n ⟨⟨p, P⟩, W⟩ _
    obtain ⟨b', l', e, S, h1, h2⟩ := k.tryResize_roomy (n := n) hf hd hz W.inv P.group_eq
    exact ⟨b', l', e, S, h1, h2 P⟩
  full := by
    intro b l n c _ h; cases h

theorem splice_roomy (k : Sx) {dbg : Bool} {z : Prop} {g : BitVec 4}
    {f : (w : Nat) → List (BitVec w) → Nat → List (BitVec w)} (hf : Roomy (f 32))
    (hd : dbg = true → z) (hz : z → AddsZeros (f 32))
    {b b0 : Buf .ump} {l : List k.Byte} (hc : k.compact b = .ok b0)
    (h : RoomyLoose k dbg z g b0 l) (d : Src k.Byte) (rb re : Bound)
    (h1 : rb.first ≤ re.last l.length) (h2 : re.last l.length ≤ l.length) :
    ∃ b', (k.ops dbg (.grow f)).splice b d rb re = .ok b' ∧
      RoomyStrict k dbg z g b' (spliced l rb.first (re.last l.length) d.items) := by
  have hcut := cut l rb.first (re.last l.length) h1
  have hlen : ((l.take (re.last l.length)).drop rb.first).length = re.last l.length - rb.first := by
    simp only [List.length_drop, List.length_take]; omega
  have L : SxLaws (k.ops dbg (.grow f)) _ _ _ none := (roomyLaws k dbg z g hf hd hz).toLaws
  refine L.splice_spec (s := b) (s0 := b0) d rb re (l.take rb.first)
    ((l.take (re.last l.length)).drop rb.first) (l.drop (re.last l.length)) hc (by rw [← hcut]; exact h) ?_ ?_
  · rw [spliceBegin_eq, List.length_take]; omega
  · rw [← hcut, spliceEnd_eq, List.length_take, hlen]; omega

theorem RoomyStrict.compact {k : Sx} {dbg : Bool} {z : Prop} {g : BitVec 4} {b : Buf .ump} {l : List k.Byte}
    (S : RoomyStrict k dbg z g b l) : ∃ b0, k.compact b = .ok b0 ∧ RoomyLoose k dbg z g b0 l := by
  obtain ⟨b0, c1, c2⟩ := Loose.compact (inv_paged k z) (N := some b.length)
    ⟨⟨_, S.packed⟩, S.whole⟩
  exact ⟨b0, c1, c2.roomy⟩

theorem setPayload_roomy (k : Sx) {dbg : Bool} {z : Prop} {g : BitVec 4}
    {f : (w : Nat) → List (BitVec w) → Nat → List (BitVec w)} (hf : Roomy (f 32))
    (hd : dbg = true → z) (hz : z → AddsZeros (f 32)) {b : Buf .ump} (hI : Paged k z b)
    (hg : ∃ w, b[0]? = some w ∧ U32.nibble w 1 = g) (d : Src k.Byte) :
    ∃ b', (k.ops dbg (.grow f)).setPayload b d = .ok b' ∧ RoomyStrict k dbg z g b' d.items := by
  obtain ⟨b1, l1, e1, S, h1, _⟩ := k.tryResize_roomy (n := 0) hf hd hz hI hg
  have : l1 = [] := List.eq_nil_of_length_eq_zero h1
  subst this
  obtain ⟨b0, c1, c2⟩ := S.compact
  obtain ⟨b', e2, e3⟩ := splice_roomy k hf hd hz c1 c2 d (.included 0) (.excluded 0)
    (by simp [Bound.first, Bound.last]) (by simp [Bound.last])
  refine ⟨b', ?_, ?_⟩
  · unfold SxOps.setPayload
    show ((k.tryResize (.grow f) b 0) >>= fun x => _) = _
    rw [e1]
    exact e2
  · have : spliced ([] : List k.Byte) (Bound.included 0).first ((Bound.excluded 0).last ([] : List k.Byte).length) d.items = d.items := by
      simp [spliced]
    rwa [this] at e3

theorem roomy_exec {k : Sx} {dbg : Bool} {z : Prop} {f : (w : Nat) → List (BitVec w) → Nat → List (BitVec w)}
    (hf : Roomy (f 32)) (hd : dbg = true → z) (hz : z → AddsZeros (f 32)) {b : Buf .ump} {g : BitVec 4}
    {l : List k.Byte} (S : RoomyStrict k dbg z g b l) (c : SxCall k) (hr : c.InRange l) :
    ∃ b', c.execOn (.grow f) dbg b = .ok b' ∧
      RoomyStrict k dbg z (c.apply (g, l)).1 b' (c.apply (g, l)).2 := by
  obtain ⟨b0, c1, c2⟩ := S.compact
  have hsplice : ∀ (d : Src k.Byte) (rb re : Bound), rb.first ≤ re.last l.length →
      re.last l.length ≤ l.length → ∃ b', (k.ops dbg (.grow f)).splice b d rb re = .ok b' ∧
        RoomyStrict k dbg z g b' (spliced l rb.first (re.last l.length) d.items) :=
    fun d rb re h1 h2 => splice_roomy k hf hd hz c1 c2 d rb re h1 h2
  have happ : ∀ d : Src k.Byte, ∃ b', ((k.ops dbg (.grow f)).insert b d l.length) = .ok b' ∧
      RoomyStrict k dbg z g b' (l ++ d.items) := by
    intro d
    have := hsplice d (.included l.length) (.excluded l.length) (Nat.le_refl _) (Nat.le_refl _)
    have e : spliced l (Bound.included l.length).first ((Bound.excluded l.length).last l.length) d.items =
        l ++ d.items := by simp [spliced, Bound.first, Bound.last]
    rw [e] at this
    exact this
  have hps : (k.ops dbg (.grow f)).payloadSize b = .ok l.length := S.packed.payloadSize_eq
  cases c with
  | setGroup g' =>
    have h := S.setGroup g' (paged_setGroup g')
    exact ⟨_, rfl, .of h.packed hd h.whole.inv h.pad⟩
  | setPayload d =>
    obtain ⟨w, hw, hwg⟩ := S.packed.group_eq
    exact setPayload_roomy k hf hd hz S.whole.inv ⟨w, hw, hwg⟩ d
  | splicePayload d rb re => exact hsplice d rb re hr.1 hr.2
  | insertPayload d i =>
    exact hsplice d (.included i) (.excluded i) (Nat.le_refl _) hr
  | appendPayload d =>
    obtain ⟨b', e, S'⟩ := happ d
    refine ⟨b', ?_, S'⟩
    show (k.ops dbg (.grow f)).append b d = _
    unfold SxOps.append
    rw [hps]; exact e
  | appendByte v =>
    obtain ⟨b', e, S'⟩ := happ ⟨[v], 1, some 1⟩
    refine ⟨b', ?_, S'⟩
    show (k.ops dbg (.grow f)).appendByte b v = _
    unfold SxOps.appendByte
    rw [hps]; exact e
  | setPayloadByte i v =>
    obtain ⟨b', e, S'⟩ := Strict.setByte (N := some b.length) (inv_paged k z) S v hr
    exact ⟨b', e, .of S'.packed hd S'.whole.inv S'.pad⟩

theorem roomy_history {k : Sx} {dbg : Bool} {z : Prop} {f : (w : Nat) → List (BitVec w) → Nat → List (BitVec w)}
    (hf : Roomy (f 32)) (hd : dbg = true → z) (hz : z → AddsZeros (f 32)) :
    ∀ (cs : List (SxCall k)) (b : Buf .ump) (s : BitVec 4 × List k.Byte),
      SxCall.AllInRange cs s → RoomyStrict k dbg z s.1 b s.2 →
      ∃ b', SxCall.execAllOn (.grow f) dbg cs b = .ok b' ∧
        RoomyStrict k dbg z (SxCall.applyAll cs s).1 b' (SxCall.applyAll cs s).2 := by
  intro cs
  induction cs with
  | nil => intro b s _ S; exact ⟨b, rfl, S⟩
  | cons c cs ih =>
    intro b s hr S
    obtain ⟨b1, e1, S1⟩ := roomy_exec hf hd hz S c hr.1
    obtain ⟨b2, e2, S2⟩ := ih b1 (c.apply s) hr.2 S1
    refine ⟨b2, ?_, S2⟩
    show (c.execOn (.grow f) dbg b >>= fun b => SxCall.execAllOn (.grow f) dbg cs b) = _
    rw [e1]
    exact e2

theorem new_roomy (k : Sx) {dbg : Bool} {z : Prop} {f : Buf .ump → Nat → Buf .ump} (hf : Roomy f)
    {b0 : Buf .ump} (hd : dbg = true → z) (hz : z → AddsZeros f ∧ ∀ w ∈ b0, w = 0) :
    ∃ b, k.newWithBufferOn f b0 = .ok b ∧ RoomyStrict k dbg z 0 b [] := by
  have hs := k.stride_pos
  have hl := hf.length b0 k.stride
  have hzl : (zeroPrefix (f b0 k.stride) k.stride).length = (f b0 k.stride).length := by
    unfold zeroPrefix
    simp only [List.length_append, List.length_replicate, List.length_drop]
    omega
  have h0 : (zeroPrefix (f b0 k.stride) k.stride)[0]? = some 0 := by
    unfold zeroPrefix
    rw [List.getElem?_append_left (by simpa using hs), List.getElem?_replicate, if_pos hs]
  obtain ⟨b', e1, e2, e3, e4⟩ := k.init_eq (by omega) h0
  refine ⟨b', e1, .of (k.fresh_packed (by omega) e3) hd ?_ fun h => absurd h (not_two_count_nil k)⟩
  intro e
  obtain ⟨ha, hb⟩ := hz e
  have hall : ∀ i, i < (zeroPrefix (f b0 k.stride) k.stride).length →
      (zeroPrefix (f b0 k.stride) k.stride)[i]? = some 0 := by
    intro i hi
    by_cases h : i < k.stride
    · unfold zeroPrefix
      rw [List.getElem?_append_left (by simpa using h), List.getElem?_replicate, if_pos h]
    · unfold zeroPrefix
      rw [List.getElem?_append_right (by simp; omega), List.getElem?_drop, List.length_replicate,
        show k.stride + (i - k.stride) = i by omega,
        List.getElem?_eq_getElem (by omega)]
      rcases ha b0 k.stride i _ (List.getElem?_eq_getElem (by omega)) with h | h
      · rw [h]
      · exact congrArg some (hb _ (List.mem_of_getElem? h))
  have hrest := e4 hall
  rw [← e2] at hrest
  refine ⟨?_, fresh_zeroId k e3 hrest⟩
  intro i o0 o1 h0 h1 ht hst
  have hlt : 16 * i + 1 < 4 * b'.length := by
    rcases Nat.lt_or_ge (16 * i + 1) (4 * b'.length) with h | h
    · exact h
    · unfold octetAt at h1
      rw [List.getElem?_eq_none (by omega)] at h1
      cases h1
  rw [fresh_octet k e3 hrest _ (by omega)] at h0 h1
  injection h0 with h0
  injection h1 with h1
  exfalso
  by_cases hi : i = 0
  · subst hi
    rw [← h1] at hst
    revert hst
    cases k <;> decide
  · rw [if_neg (by omega)] at h0
    rw [← h0] at ht
    revert ht
    cases k <;> decide

end Sx

namespace Sxb

theorem take_grows {w : Nat} {f : List (BitVec w) → Nat → List (BitVec w)} (hf : Roomy f) :
    Grows fun b n => (f b n).take n where
  length b n := by rw [List.length_take, Nat.min_eq_left (hf.length b n)]
  keeps b n i h1 h2 := by rw [List.getElem?_take_of_lt h1, hf.keeps b n i h1 h2]

theorem take_septets {f : List (BitVec 8) → Nat → List (BitVec 8)} (h7 : ClearsRest f) :
    GrowsSeptets fun b n => (f b n).take n := by
  intro b n i v hi hv
  rw [List.getElem?_take] at hv
  split at hv
  · exact h7 b n i v (.inr hi) hv
  · cases hv

theorem below_septets {l : List (BitVec 8)} (h : ∀ v ∈ l, v.toNat < 128) :
    ∃ q : List (BitVec 7), l = q.map e := by
  induction l with
  | nil => exact ⟨[], rfl⟩
  | cons v l ih =>
    obtain ⟨q, hq⟩ := ih fun x hx => h x (List.mem_cons_of_mem _ hx)
    obtain ⟨w, hw, _⟩ := u7New_ok (h v (List.mem_cons_self ..))
    exact ⟨w :: q, by rw [List.map_cons, hw, ← hq]⟩

theorem resizeGrow_roomy {f : List (BitVec 8) → Nat → List (BitVec 8)} (hf : Roomy f)
    (h7 : ClearsRest f) (l r : List (BitVec 7)) (n : Nat) :
    ∃ l' r' : List (BitVec 7),
      resizeGrow f (raw (l.map e) (r.map e)) n = .ok (raw (l'.map e) (r'.map e)) ∧
      l'.length = n ∧ l'.take l.length = l.take n := by
  obtain ⟨l', e1, h1, h2⟩ := resizeGrow_exact (take_grows hf) (take_septets h7) l r n
  obtain ⟨r', hr'⟩ := below_septets (l := (f (raw (l.map e) (r.map e)) (n + 2)).drop (n + 2)) (by
    intro v hv
    obtain ⟨i, hi⟩ := List.mem_iff_getElem?.mp hv
    rw [List.getElem?_drop] at hi
    exact h7 _ _ _ v (.inl (by omega)) hi)
  refine ⟨l', r', ?_, h1, h2⟩
  have hsplit : f (raw (l.map e) (r.map e)) (n + 2) =
      (f (raw (l.map e) (r.map e)) (n + 2)).take (n + 2) ++ r'.map e := by
    rw [← hr', List.take_append_drop]
  have hraw : raw (l'.map e) (r'.map e) = raw (l'.map e) [] ++ r'.map e := by
    unfold raw; simp
  rw [hraw]
  unfold resizeGrow at e1 ⊢
  rw [payloadSize_raw (end_notin l), List.length_map] at e1 ⊢
  simp only [Res.ok_bind] at e1 ⊢
  rw [hsplit]
  generalize (f (raw (l.map e) (r.map e)) (n + 2)).take (n + 2) = c at e1 ⊢
  by_cases h : n > l.length
  · rw [if_pos h] at e1 ⊢
    obtain ⟨c1, x1, x2⟩ := bind_inv e1
    rw [modifyAt_app x1, Res.ok_bind]
    exact modifyAt_app x2 _
  · rw [if_neg h] at e1 ⊢
    exact modifyAt_app e1 _

theorem roomyLaws {f : (w : Nat) → List (BitVec w) → Nat → List (BitVec w)} (hf : Roomy (f 8))
    (h7 : ClearsRest (f 8)) : SxLawsAll (ops (.grow f)) (Clean none) (Clean none) none where
  weaken h := h
  bound := by
    intro s l _ c hc; cases hc
  size h := (laws none).size h
  write v i h hi := (laws none).write v i h hi
  same i h := (laws none).same i h
  up tail to h h1 h2 := (laws none).up tail to h h1 h2
  down tail to h h1 h2 := (laws none).down tail to h h1 h2
  resize := by
    rintro s l n ⟨r, rfl, _⟩ _
    obtain ⟨l', r', e1, h1, h2⟩ := resizeGrow_roomy hf h7 l r n
    refine ⟨_, l', ?_, ⟨r', rfl, fun _ h => by cases h⟩, h1, h2⟩
    show (do return (← resizeGrow (f 8) _ n, none) : Res _) = _
    rw [e1]; rfl
  full := by
    intro s l n c _ h; cases h

theorem splice_roomy {f : (w : Nat) → List (BitVec w) → Nat → List (BitVec w)} (hf : Roomy (f 8))
    (h7 : ClearsRest (f 8)) {b : Buf .bytes} {l : List (BitVec 7)} (C : Clean none b l)
    (d : Src (BitVec 7)) (rb re : Bound)
    (h1 : rb.first ≤ re.last l.length) (h2 : re.last l.length ≤ l.length) :
    ∃ b', (ops (.grow f)).splice b d rb re = .ok b' ∧
      Clean none b' (spliced l rb.first (re.last l.length) d.items) := by
  have hcut := Sx.cut l rb.first (re.last l.length) h1
  have hlen : ((l.take (re.last l.length)).drop rb.first).length = re.last l.length - rb.first := by
    simp only [List.length_drop, List.length_take]; omega
  have L := (roomyLaws hf h7).toLaws
  exact L.splice_spec (s := b) (s0 := b) d rb re
    (l.take rb.first) ((l.take (re.last l.length)).drop rb.first) (l.drop (re.last l.length)) rfl
    (by rw [← hcut]; exact C)
    (by rw [Sx.spliceBegin_eq, List.length_take]; omega)
    (by rw [← hcut, Sx.spliceEnd_eq, List.length_take, hlen]; omega)

end Sxb

end Midi2
