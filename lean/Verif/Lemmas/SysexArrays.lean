import Verif.Spec.SysexArrays
import Verif.Lemmas.SysexJourney

/-! Steps of the journey of a system exclusive message through arrays. -/

namespace Midi2

namespace Sx

/-- No begin or continue header in the buffer is that of a partly filled packet. -/
def Heads (k : Sx) (b : Buf .ump) : Prop :=
  ∀ j o0 o1, octetAt b (4 * (k.stride * j)) = some o0 →
    octetAt b (4 * (k.stride * j) + 1) = some o1 → o0.extractLsb' 4 4 = k.typ →
    (o1.extractLsb' 4 4 = 0x1 ∨ o1.extractLsb' 4 4 = 0x2) → o1.extractLsb' 0 4 = k.fullNibble

theorem Heads.tidy {k : Sx} {b : Buf .ump} (h : Heads k b) : Tidy k b := by
  intro i o0 o1 _ h0 h1
  rw [k.four_stride i] at h0 h1
  exact h _ o0 o1 h0 h1

/-- What stays true of the whole buffer. -/
def Clean (k : Sx) (b : Buf .ump) : Prop := Heads k b ∧ (k = s8 → ZeroId k b)

theorem octetAt_append_zeros {b : Buf .ump} {n a : Nat} {o : BitVec 8}
    (h : octetAt (b ++ List.replicate n 0) a = some o) :
    octetAt b a = some o ∨ (4 * b.length ≤ a ∧ o = 0) := by
  by_cases hb : a < 4 * b.length
  · rw [octetAt_append hb] at h
    exact .inl h
  · refine .inr ⟨by omega, ?_⟩
    unfold octetAt at h
    rw [List.getElem?_append_right (by omega), List.getElem?_replicate] at h
    split at h
    · have hz : ∀ r < 4, U32.octet (0 : BitVec 32) r = 0 := by decide
      rw [Option.map_some, hz _ (Nat.mod_lt _ (by omega))] at h
      cases h; rfl
    · cases h

theorem typ_ne_zero (k : Sx) : (0 : BitVec 8).extractLsb' 4 4 ≠ k.typ := by cases k <;> decide

theorem octetAt_of_take {b : Buf .ump} {n a : Nat} {o : BitVec 8}
    (ho : octetAt (b.take n) a = some o) : octetAt b a = some o := by
  have : a < 4 * n := by
    have : (octetAt (b.take n) a).isSome := by simp [ho]
    rw [octetAt_isSome, List.length_take] at this
    omega
  rwa [octetAt_take _ _ _ this] at ho

theorem Clean.append {k : Sx} {b : Buf .ump} (h : Clean k b) (n : Nat) :
    Clean k (b ++ List.replicate n 0) := by
  refine ⟨?_, fun hk => ⟨?_, ?_⟩⟩
  · intro j o0 o1 h0 h1 ht
    rcases octetAt_append_zeros h0 with h0 | ⟨_, rfl⟩
    · rcases octetAt_append_zeros h1 with h1 | ⟨hl, _⟩
      · exact h.1 j o0 o1 h0 h1 ht
      · have : (octetAt b (4 * (k.stride * j))).isSome := by simp [h0]
        rw [octetAt_isSome] at this
        omega
    · exact absurd ht k.typ_ne_zero
  · intro _ j o ho
    rcases octetAt_append_zeros ho with ho | ⟨_, rfl⟩
    · exact (h.2 hk).1 hk j o ho
    · rfl
  · intro hk'
    rw [hk] at hk'
    cases hk'

theorem Clean.take {k : Sx} {b : Buf .ump} (h : Clean k b) (n : Nat) : Clean k (b.take n) :=
  ⟨fun j o0 o1 h0 h1 => h.1 j o0 o1 (octetAt_of_take h0) (octetAt_of_take h1),
    fun hk => zeroId_take (h.2 hk) n⟩

theorem vecResize_eq_append (b : Buf .ump) (n : Nat) :
    vecResize b n = b.take n ++ List.replicate (n - b.length) 0 := rfl

theorem Clean.vecResize {k : Sx} {b : Buf .ump} (h : Clean k b) (n : Nat) :
    Clean k (vecResize b n) := by
  rw [vecResize_eq_append]
  exact (h.take n).append _

theorem Clean.setGroup {k : Sx} {b : Buf .ump} (h : Clean k b) (g : BitVec 4) :
    Clean k (k.setGroup b g) := by
  refine ⟨?_, fun hk => zeroId_setGroup g (h.2 hk)⟩
  intro j o0 o1 h0 h1 ht
  obtain ⟨o', e1, e2⟩ := setGroup_first k b g j h0
  rw [setGroup_other k b g _ (by cases k <;> simp only [stride] <;> omega)] at h1
  exact h.1 j o' o1 e1 h1 (e2 ▸ ht)

theorem inv_clean (k : Sx) {fixed : Bool} : Inv k (Clean k) fixed := by
  refine ⟨?_, ?_, fun _ _ n _ _ h => h.vecResize n⟩
  · intro b b' e h
    refine ⟨?_, fun hk => e.zeroId (h.2 hk)⟩
    intro j o0 o1 h0 h1
    have ho := k.two_le_off
    have e0 := e.head j 0 (by omega)
    rw [Nat.add_zero] at e0
    rw [e0] at h0
    rw [e.head j 1 (by omega)] at h1
    exact h.1 j o0 o1 h0 h1
  · intro g p n b b' r h
    refine ⟨?_, fun hk => r.zeroId (h.2 hk)⟩
    intro j o0 o1 h0 h1 ht hs
    by_cases hi : j < p
    · have a := r.oct1 _ hi
      rw [h1] at a
      have a := Option.some.inj a
      subst a
      unfold sizeOctet at *
      rw [append_hi] at hs
      rw [append_lo]
      unfold stat at hs
      unfold fillSize fullNibble
      split at hs
      · exact absurd hs (by decide)
      · split at hs
        · next hp hj => rw [if_neg (by omega)]
        · split at hs
          · exact absurd hs (by decide)
          · next hj => rw [if_neg hj]
    · have hle : k.stride * p ≤ k.stride * j := Nat.mul_le_mul_left _ (by omega)
      rw [r.beyond _ (by omega)] at h0 h1
      exact h.1 j o0 o1 h0 h1 ht hs

/-- The message on its journey. -/
structure Afloat {k : Sx} (s : SxView k) (b : Buf .ump) : Prop where
  packed : Packed k s.group (k.count s.payload.length) b s.payload
  clean : Clean k b
  len : b.length = s.length

section
variable {k : Sx} {dbg : Bool} {s : SxView k} {b : Buf .ump}

theorem Afloat.loose (A : Afloat s b) (N : Option Nat) (hN : ∀ n, N = some n → b.length = n) :
    Loose k dbg (Clean k) s.group N b s.payload :=
  ⟨⟨_, A.packed⟩, fun _ => A.clean.1.tidy.steady N, A.clean, hN⟩

theorem Strict.afloat {g : BitVec 4} {l : List k.Byte} {N : Option Nat}
    (S : Strict k dbg (Clean k) g N b l) : Afloat ⟨g, l, b.length⟩ b :=
  ⟨S.packed, S.whole.inv, rfl⟩

theorem Afloat.setGroup (A : Afloat s b) (g : BitVec 4) :
    Afloat { s with group := g } (k.setGroup b g) :=
  ⟨A.packed.setGroup g, A.clean.setGroup g, (setGroup_length k b g).trans A.len⟩

theorem Afloat.setByte (A : Afloat s b) {i : Nat} (hi : i < s.payload.length) (v : k.Byte) :
    ∃ b', k.setByte b v i = .ok b' ∧ Afloat { s with payload := s.payload.set i v } b' := by
  have P := A.packed
  have hpay : P.valid.payload = s.payload := by
    unfold Valid.payload
    rw [P.restFrom_eq _ 0 rfl (by omega)]; simp
  obtain ⟨b', e1, e2, e3, -⟩ := P.valid.setByte v (i := i) (by rw [hpay]; exact hi)
  have V' := e2.valid P.valid
  have P' : Packed k s.group (k.count s.payload.length) b' (s.payload.set i v) := by
    have := V'.packed (fun j hj => by
      unfold fillSize
      rw [if_neg (by omega)])
    have e : V'.payload = s.payload.set i v := by
      unfold Valid.payload
      rw [e3, hpay]
    rwa [e] at this
  refine ⟨b', e1, ?_, (inv_clean k (fixed := true)).same e2 A.clean, e2.1.trans A.len⟩
  show Packed k s.group (k.count (s.payload.set i v).length) b' _
  rw [List.length_set]; exact P'

theorem Afloat.call (A : Afloat s b) (c : SxCall k) (hr : c.InRange s.payload) :
    ∃ b' s', c.exec dbg b = .ok b' ∧ SxTrip.apply s (.call c) = some (s', []) ∧ Afloat s' b' := by
  have hI := inv_clean k (fixed := false)
  obtain ⟨b0, c1, c2⟩ := Loose.compact (N := none) hI (A.loose (dbg := dbg) none (fun _ h => nomatch h))
  have hsplice : ∀ (d : Src k.Byte) (rb re : Bound), rb.first ≤ re.last s.payload.length →
      re.last s.payload.length ≤ s.payload.length → ∃ b',
        (k.ops dbg .vec).splice b d rb re = .ok b' ∧
        Strict k dbg (Clean k) s.group none b'
          (spliced s.payload rb.first (re.last s.payload.length) d.items) :=
    fun d rb re h1 h2 => splice_vec k hI c1 c2 d rb re h1 h2
  have happ : ∀ d : Src k.Byte, ∃ b', ((k.ops dbg .vec).insert b d s.payload.length) = .ok b' ∧
      Strict k dbg (Clean k) s.group none b' (s.payload ++ d.items) := by
    intro d
    have := hsplice d (.included s.payload.length) (.excluded s.payload.length) (Nat.le_refl _)
      (Nat.le_refl _)
    rw [spliced_append] at this
    exact this
  have hps : (k.ops dbg .vec).payloadSize b = .ok s.payload.length := A.packed.payloadSize_eq
  have done : ∀ {b' : Buf .ump} {l : List k.Byte}, Strict k dbg (Clean k) s.group none b' l →
      Afloat { s with payload := l, length := k.layout.words * (k.layout.fill l.length).length } b' :=
    fun S => ⟨S.packed, S.whole.inv, by rw [S.exact rfl, words_eq, length_fill]⟩
  cases c with
  | setGroup g => exact ⟨_, _, rfl, rfl, A.setGroup g⟩
  | setPayload d =>
    obtain ⟨b', e, S⟩ := setPayload_vec k dbg hI (group_word A.packed.group_ok)
      (A.clean.vecResize _) d
    exact ⟨b', _, e, rfl, done S⟩
  | splicePayload d rb re =>
    obtain ⟨b', e, S⟩ := hsplice d rb re hr.1 hr.2
    exact ⟨b', _, e, rfl, done S⟩
  | insertPayload d i =>
    obtain ⟨b', e, S⟩ := hsplice d (.included i) (.excluded i) (Nat.le_refl _) hr
    exact ⟨b', _, e, rfl, done S⟩
  | appendPayload d =>
    obtain ⟨b', e, S⟩ := happ d
    refine ⟨b', _, ?_, rfl, done S⟩
    show (k.ops dbg .vec).append b d = _
    unfold SxOps.append
    rw [hps]; exact e
  | appendByte v =>
    obtain ⟨b', e, S⟩ := happ ⟨[v], 1, some 1⟩
    refine ⟨b', _, ?_, rfl, done S⟩
    show (k.ops dbg .vec).appendByte b v = _
    unfold SxOps.appendByte
    rw [hps]; exact e
  | setPayloadByte i v =>
    obtain ⟨b', e, A'⟩ := A.setByte hr v
    exact ⟨b', _, e, rfl, A'⟩

/-- A fallible call in an array. -/
theorem Afloat.tryCall (A : Afloat s b) (c : SxTryCall k) (hr : c.InRange s.payload) :
    ∃ b', c.exec dbg b = .ok (b', (c.apply s.length (s.group, s.payload)).2) ∧
      Afloat ⟨(c.apply s.length (s.group, s.payload)).1.1,
        (c.apply s.length (s.group, s.payload)).1.2, s.length⟩ b' := by
  obtain ⟨g, l, n⟩ := s
  have hlen : b.length = n := A.len
  have hI := inv_clean k (fixed := true)
  have P : Packed k g (k.count l.length) b l := A.packed
  have hfit : k.stride * k.count l.length ≤ n := hlen ▸ P.len
  have hn : k.stride ≤ n := by
    have := Nat.mul_le_mul_left k.stride (k.count_pos l.length)
    omega
  obtain ⟨b0, c1, c2⟩ := Loose.compact (N := some n) hI
    (A.loose (dbg := dbg) (some n) (fun _ h => by cases h; exact hlen))
  have fin : ∀ (c : SxTryCall k) (x : Res (Buf .ump × Option Error)), c.exec dbg b = x →
      (∀ g', c ≠ .setGroup g') →
      ((k.stride * k.count (c.wanted l).length ≤ n → ∃ b', x = .ok (b', none) ∧
          Afloat ⟨g, c.wanted l, n⟩ b') ∧
        (n < k.stride * k.count (c.wanted l).length → ∃ b', x = .ok (b', some .bufferOverflow) ∧
          Afloat (k := k) ⟨g, [], n⟩ b')) →
      ∃ b', c.exec dbg b = .ok (b', (c.apply n (g, l)).2) ∧
        Afloat ⟨(c.apply n (g, l)).1.1, (c.apply n (g, l)).1.2, n⟩ b' := by
    intro c x hx hc h
    unfold SxTryCall.apply
    simp only
    rw [wireLength_eq]
    by_cases hf : k.stride * k.count (c.wanted l).length ≤ n
    · obtain ⟨b', e1, e2⟩ := h.1 hf
      rw [if_pos (by omega), hx]
      refine ⟨b', e1, ?_⟩
      cases c <;> first | exact absurd rfl (hc _) | exact e2
    · obtain ⟨b', e1, e2⟩ := h.2 (by omega)
      rw [if_neg (by omega), hx]
      refine ⟨b', e1, ?_⟩
      cases c <;> first | exact absurd rfl (hc _) | exact e2
  have wrap : ∀ {b' : Buf .ump} {m : List k.Byte}, Strict k dbg (Clean k) g (some n) b' m →
      Afloat ⟨g, m, n⟩ b' :=
    fun S => ⟨S.packed, S.whole.inv, S.whole.fixed n rfl⟩
  have both : ∀ {x : Res (Buf .ump × Option Error)} {m : List k.Byte},
      ((k.stride * k.count m.length ≤ n → ∃ b', x = .ok (b', none) ∧
          Strict k dbg (Clean k) g (some n) b' m) ∧
        (n < k.stride * k.count m.length → ∃ b', x = .ok (b', some .bufferOverflow) ∧
          Strict k dbg (Clean k) g (some n) b' [])) →
      ((k.stride * k.count m.length ≤ n → ∃ b', x = .ok (b', none) ∧ Afloat ⟨g, m, n⟩ b') ∧
        (n < k.stride * k.count m.length → ∃ b', x = .ok (b', some .bufferOverflow) ∧
          Afloat (k := k) ⟨g, [], n⟩ b')) := by
    intro x m h
    refine ⟨fun hf => ?_, fun hf => ?_⟩
    · obtain ⟨b', e, S⟩ := h.1 hf
      exact ⟨b', e, wrap S⟩
    · obtain ⟨b', e, S⟩ := h.2 hf
      exact ⟨b', e, wrap S⟩
  have hps : (k.ops dbg .fixed).payloadSize b = .ok l.length := P.payloadSize_eq
  have hsplice := fun (d : Src k.Byte) (rb re : Bound) h1 h2 hh =>
    both (splice_fixed k hI hn c1 c2 d rb re h1 h2 hh)
  have hins : ∀ (d : Src k.Byte) (i : Nat), i ≤ l.length → _ := fun d i hi =>
    hsplice d (.included i) (.excluded i) (Nat.le_refl _) hi (.inl rfl)
  have happ := fun d : Src k.Byte => hins d l.length (Nat.le_refl _)
  show ∃ b', c.exec dbg b = .ok (b', (c.apply n (g, l)).2) ∧
    Afloat ⟨(c.apply n (g, l)).1.1, (c.apply n (g, l)).1.2, n⟩ b'
  cases c with
  | setGroup g' =>
    have e : (SxTryCall.setGroup g' : SxTryCall k).apply n (g, l) = ((g', l), none) := by
      unfold SxTryCall.apply
      rw [if_pos (by
        show k.layout.wireLength l.length ≤ 4 * n
        rw [wireLength_eq]; omega)]
      rfl
    rw [e]
    exact ⟨_, rfl, A.setGroup g'⟩
  | setPayload d =>
    refine fin (.setPayload d) _ rfl (fun _ h => by cases h) ?_
    have := trySetPayload_fixed k (dbg := dbg) hI (by omega) (group_word P.group_ok) A.clean
      (fun e => A.clean.1.tidy.from _) d
    rw [hlen] at this
    exact both this
  | splicePayload d rb re =>
    refine fin (.splicePayload d rb re) _ rfl (fun _ h => by cases h) ?_
    refine hsplice d rb re hr.1 hr.2.1 ?_
    have he : d.upper.getD d.lower = d.estimate := by
      unfold Src.estimate
      cases d.upper <;> rfl
    rw [← he]
    exact (hr.2.2.imp_right Or.inl)
  | insertPayload d i =>
    exact fin (.insertPayload d i) _ rfl (fun _ h => by cases h) (hins d i hr)
  | appendPayload d =>
    refine fin (.appendPayload d) ((k.ops dbg .fixed).tryInsert b d l.length) ?_
      (fun _ h => by cases h) ?_
    · show (k.ops dbg .fixed).tryAppend b d = _
      unfold SxOps.tryAppend
      rw [hps]; rfl
    · have := happ d
      rw [spliced_append] at this
      exact this
  | appendByte v =>
    refine fin (.appendByte v) ((k.ops dbg .fixed).tryInsert b ⟨[v], 1, some 1⟩ l.length) ?_
      (fun _ h => by cases h) ?_
    · show (k.ops dbg .fixed).tryAppendByte b v = _
      unfold SxOps.tryAppendByte
      rw [hps]; rfl
    · have := happ ⟨[v], 1, some 1⟩
      rw [spliced_append] at this
      exact this
  | setPayloadByte i v =>
    obtain ⟨b', e, A'⟩ := A.setByte hr v
    refine fin (.setPayloadByte i v) (.ok (b', none)) ?_ (fun _ h => by cases h) ⟨?_, ?_⟩
    · show (k.setByte b v i).bind _ = _
      rw [e]; rfl
    · intro _
      exact ⟨b', rfl, A'⟩
    · intro h
      have : (SxTryCall.setPayloadByte i v : SxTryCall k).wanted l = l.set i v := rfl
      rw [this, List.length_set] at h
      omega

theorem Afloat.tryCalls : ∀ (cs : List (SxTryCall k)) {s : SxView k} {b : Buf .ump},
    Afloat s b → SxTryCall.AllInRange s.length cs (s.group, s.payload) →
    ∃ b', SxTryCall.execAll dbg cs b =
        .ok (b', (SxTryCall.applyAll s.length cs (s.group, s.payload)).2) ∧
      Afloat ⟨(SxTryCall.applyAll s.length cs (s.group, s.payload)).1.1,
        (SxTryCall.applyAll s.length cs (s.group, s.payload)).1.2, s.length⟩ b'
  | [], _, b, A, _ => ⟨b, rfl, A⟩
  | c :: cs, s, b, A, hr => by
    obtain ⟨b1, e1, A1⟩ := A.tryCall (dbg := dbg) c hr.1
    obtain ⟨b2, e2, A2⟩ := Afloat.tryCalls cs A1 hr.2
    refine ⟨b2, ?_, A2⟩
    show (c.exec dbg b >>= fun x => _) = _
    rw [e1]
    simp only [Res.ok_bind]
    rw [e2]
    rfl

theorem Afloat.append (A : Afloat s b) {n : Nat} (h : s.length ≤ n) :
    Afloat { s with length := n } (b ++ List.replicate (n - b.length) 0) :=
  ⟨A.packed.append _, A.clean.append _, by
    rw [List.length_append, List.length_replicate, A.len]; show _ = n; omega⟩

theorem Afloat.send (A : Afloat s b) :
    k.tryFrom (b.take (k.stride * k.count s.payload.length)) =
        .ok (b.take (k.stride * k.count s.payload.length)) ∧
      Afloat { s with length := k.layout.words * (k.layout.fill s.payload.length).length }
        (b.take (k.stride * k.count s.payload.length)) := by
  have P := A.packed
  have hlen : (b.take (k.stride * k.count s.payload.length)).length =
      k.stride * k.count s.payload.length := by
    rw [List.length_take, Nat.min_eq_left P.len]
  refine ⟨?_, P.take, A.clean.take _, by rw [hlen, words_eq, length_fill]⟩
  refine (tryFrom_iff _ _).mpr (P.take.valid.accepts hlen fun hk j hj => ?_)
  have hz' := zeroId_take (A.clean.2 hk) (k.stride * k.count s.payload.length)
  have hs := k.stride_pos
  have h1 : k.stride * j < (b.take (k.stride * k.count s.payload.length)).length := by
    rw [hlen]; exact Nat.mul_lt_mul_of_pos_left hj hs
  have h0 := zeroId_fields hz' hk 0 (by rw [Nat.mul_zero]; omega)
  rw [Nat.mul_zero] at h0
  rw [zeroId_fields hz' hk j h1, h0]

theorem trip_afloat (A : Afloat s b) (t : SxTrip k) (hl : t.Legal s) :
    (t.apply s = none → t.exec dbg b = .err .bufferOverflow) ∧
    ∀ s' es, t.apply s = some (s', es) → ∃ b', t.exec dbg b = .ok (b', es) ∧ Afloat s' b' := by
  cases t with
  | call c =>
    obtain ⟨b', s', h1, h2, h3⟩ := A.call (dbg := dbg) c hl
    rw [h2]
    refine ⟨(fun h => nomatch h), fun t es ht => ?_⟩
    cases ht
    refine ⟨b', ?_, h3⟩
    show (c.exec dbg b >>= _) = _
    rw [h1]; rfl
  | rebuffer =>
    refine ⟨(fun h => nomatch h), fun t es ht => ?_⟩
    cases ht
    exact ⟨b, rfl, A⟩
  | array n cs =>
    have hx : SxTrip.exec dbg b (.array n cs) = ((UmpKind.sysex k).tryRebufferArray n b >>= fun b =>
      SxTryCall.execAll dbg cs b >>= fun x => .ok (x.1, x.2)) := rfl
    have ha : SxTrip.apply s (.array n cs) = if s.length ≤ n then
      some (⟨(SxTryCall.applyAll n cs (s.group, s.payload)).1.1,
        (SxTryCall.applyAll n cs (s.group, s.payload)).1.2, n⟩,
        (SxTryCall.applyAll n cs (s.group, s.payload)).2) else none := rfl
    rw [hx, ha]
    unfold UmpKind.tryRebufferArray
    by_cases h : s.length ≤ n
    · rw [if_pos h, if_neg (by rw [A.len]; omega)]
      refine ⟨(fun h => nomatch h), fun t es ht => ?_⟩
      obtain ⟨b', e, A'⟩ := Afloat.tryCalls (dbg := dbg) cs (A.append h) (hl h)
      cases ht
      refine ⟨b', ?_, A'⟩
      simp only [Res.ok_bind]
      rw [e]; rfl
    · rw [if_neg h, if_pos (by rw [A.len]; omega)]
      exact ⟨fun _ => rfl, fun t es ht => nomatch ht⟩
  | send =>
    refine ⟨(fun h => nomatch h), fun t es ht => ?_⟩
    cases ht
    obtain ⟨h1, h2⟩ := A.send
    refine ⟨_, ?_, h2⟩
    show (k.data b >>= fun d => k.tryFrom d >>= _) = _
    rw [A.packed.data_eq]
    simp only [Res.ok_bind]
    rw [h1]; rfl

theorem trips_afloat : ∀ (ts : List (SxTrip k)) {s : SxView k} {b : Buf .ump}, Afloat s b →
    SxTrip.AllLegal s ts →
    (SxTrip.applyAll s ts = none → SxTrip.execAll dbg ts b = .err .bufferOverflow) ∧
    ∀ s' es, SxTrip.applyAll s ts = some (s', es) →
      ∃ b', SxTrip.execAll dbg ts b = .ok (b', es) ∧ Afloat s' b'
  | [], _, b, A, _ => ⟨(fun h => nomatch h), fun s' es h => by cases h; exact ⟨b, rfl, A⟩⟩
  | t :: ts, s, b, A, hl => by
    obtain ⟨h1, h2⟩ := trip_afloat (dbg := dbg) A t hl.1
    have hx : SxTrip.execAll dbg (t :: ts) b = (t.exec dbg b >>= fun x =>
      SxTrip.execAll dbg ts x.1 >>= fun y => .ok (y.1, x.2 ++ y.2)) := rfl
    have ha : SxTrip.applyAll s (t :: ts) = (t.apply s >>= fun x =>
      SxTrip.applyAll x.1 ts >>= fun y => some (y.1, x.2 ++ y.2)) := rfl
    rw [hx, ha]
    cases hs : t.apply s with
    | none =>
      rw [h1 hs]
      exact ⟨fun _ => rfl, fun s' _ h => nomatch h⟩
    | some x =>
      obtain ⟨s1, es1⟩ := x
      obtain ⟨b1, h3, h4⟩ := h2 s1 es1 hs
      obtain ⟨h5, h6⟩ := trips_afloat ts h4 (hl.2 s1 es1 hs)
      rw [h3]
      simp only [Res.ok_bind, Option.bind_eq_bind, Option.bind_some]
      cases hy : SxTrip.applyAll s1 ts with
      | none =>
        rw [h5 hy]
        exact ⟨fun _ => rfl, fun s' _ h => nomatch h⟩
      | some y =>
        refine ⟨(fun h => nomatch h), fun s' es h => ?_⟩
        obtain ⟨b2, h7, h8⟩ := h6 y.1 y.2 hy
        rw [h7]
        cases h
        exact ⟨b2, rfl, h8⟩

/-- A message that fills its buffer can set out. -/
theorem afloat_start {g : BitVec 4} {l : List k.Byte} (H : k.Holds b g l) (hd : k.data b = .ok b)
    (hz : k = s8 → ∀ j, 4 * j < b.length → fieldAt b (4 * j) 16 8 = some 0) :
    Afloat ⟨g, l, b.length⟩ b := by
  obtain ⟨d, h1, h2, M, -⟩ := H.wire
  rw [hd] at h1
  cases h1
  rw [fill_eq k _ _ (Nat.le_refl _)] at M
  have V := valid_iff.mpr M
  have P := V.packed (fun j hj => by unfold fillSize; rw [if_neg (by omega)])
  have hp : V.payload = l := by
    have := H.payload
    rw [V.frame.payloadList_eq] at this
    injection this
  rw [hp] at P
  rw [words_eq, length_fill] at h2
  refine ⟨P, ⟨?_, ?_⟩, rfl⟩
  · intro j o0 o1 h0 ho1 ht hs
    by_cases hj : j < k.count l.length
    · exact P.full_head hj ho1 hs
    · have : k.stride * k.count l.length ≤ k.stride * j := Nat.mul_le_mul_left _ (by omega)
      rw [octetAt_none (by omega)] at h0
      cases h0
  · intro hk
    refine ⟨?_, fun h => by rw [hk] at h; cases h⟩
    intro _ j o ho
    have hb : 16 * j + 2 < 4 * b.length := by
      have : (octetAt b (16 * j + 2)).isSome := by simp [ho]
      rwa [octetAt_isSome] at this
    have h4 : 4 * j < b.length := by omega
    have hf := hz hk j h4
    rw [fieldAt_ok h4] at hf
    have e := octet_field b[4 * j] (i := 2) (by omega)
    rw [octetAt_lt hb] at ho
    have e1 : (16 * j + 2) / 4 = 4 * j := by omega
    have e2 : (16 * j + 2) % 4 = 2 := by omega
    simp only [e1, e2] at ho
    cases ho
    apply BitVec.eq_of_toNat_eq
    rw [e]
    exact Option.some.inj hf

end

end Sx

end Midi2
