import Verif.Spec.SysexJourney
import Verif.Lemmas.ReadyHistory
import Verif.Props.SysexBytes

/-! Steps of the journey of a `Sysex7` message. -/

namespace Midi2

namespace Sx

/-- No packet of the type follows. -/
def Quiet (p : Nat) (b : Buf .ump) : Prop :=
  ∀ j o, p ≤ j → octetAt b (8 * j) = some o → o.extractLsb' 4 4 = 0#4

/-- The message in words on its journey. -/
structure Aboard (s : Sight) (b : Buf .ump) : Prop where
  packed : Packed s7 s.group (s7.count s.payload.length) b s.payload
  quiet : Quiet (s7.count s.payload.length) b
  len : b.length = s.length

theorem sysex7Length_ump (n : Nat) : sysex7Length .ump n = 2 * s7.count n := by
  unfold sysex7Length
  simp only
  have := length_fill s7 n
  rw [show s7.layout = sysex7Layout from rfl] at this
  rw [this]; rfl

theorem Quiet.tidyFrom {p : Nat} {b : Buf .ump} (h : Quiet p b) : TidyFrom s7 (s7.stride * p) b := by
  intro i o0 o1 hq hl h0 h1 ht
  have hq : 2 * p ≤ 4 * i := hq
  have := h (2 * i) o0 (by omega) (by rw [← h0]; congr 1; omega)
  rw [this] at ht
  exact absurd ht (by decide)

variable {dbg : Bool} {s : Sight} {b : Buf .ump}

theorem Aboard.loose (A : Aboard s b) : Loose s7 dbg (fun _ => True) s.group none b s.payload :=
  ⟨⟨_, A.packed⟩, fun _ => isCompact_of_tidy (A.packed.tidy A.quiet.tidyFrom), trivial,
    fun _ h => nomatch h⟩

theorem Aboard.ready (A : Aboard s b) : s7.Ready dbg false b s.group s.payload :=
  Loose.ready (N := none) A.loose

theorem Strict.aboard {g : BitVec 4} {l : List (BitVec 7)}
    (S : Strict s7 dbg (fun _ => True) g none b l) :
    Aboard ⟨.ump, g, l, sysex7Length .ump l.length⟩ b := by
  have hl : b.length = 2 * s7.count l.length := S.exact rfl
  refine ⟨S.packed, ?_, hl.trans (sysex7Length_ump _).symm⟩
  intro j o (hj : s7.count l.length ≤ j) ho
  rw [octetAt_none (by omega)] at ho
  cases ho

theorem Quiet.append {p : Nat} (h : Quiet p b) (n : Nat) : Quiet p (b ++ List.replicate n 0) := by
  intro j o hj ho
  by_cases hb : 8 * j < 4 * b.length
  · refine h j o hj ?_
    rw [← ho]
    unfold octetAt
    rw [List.getElem?_append_left (by omega)]
  · unfold octetAt at ho
    rw [List.getElem?_append_right (by omega), List.getElem?_replicate] at ho
    split at ho
    · have hz : ∀ r < 4, U32.octet (0 : BitVec 32) r = 0 := by decide
      rw [Option.map_some, hz _ (Nat.mod_lt _ (by omega))] at ho
      cases ho; rfl
    · cases ho

theorem octetAt_append {b c : Buf .ump} {a : Nat} (h : a < 4 * b.length) :
    octetAt (b ++ c) a = octetAt b a := by
  unfold octetAt
  rw [List.getElem?_append_left (by omega)]

theorem Packed.append {k : Sx} {g : BitVec 4} {p : Nat} {l : List k.Byte} (P : Packed k g p b l)
    (c : Buf .ump) : Packed k g p (b ++ c) l := by
  have hs := k.stride_pos
  have hhd : ∀ j r, j < p → r < 2 → 4 * (k.stride * j) + r < 4 * b.length := by
    intro j r hj hr
    have : k.stride * (j + 1) ≤ k.stride * p := Nat.mul_le_mul_left _ hj
    have := P.len
    rw [Nat.mul_succ] at *
    omega
  refine ⟨P.pos, ?_, P.lo, P.hi, ?_, ?_, ?_⟩
  · rw [List.length_append]; have := P.len; omega
  · intro j hj
    rw [octetAt_append (by have := hhd j 0 hj; omega), P.oct0 j hj]
  · intro j hj
    rw [octetAt_append (hhd j 1 hj (by omega)), P.oct1 j hj]
  · intro i hi
    rw [octetAt_append, P.bytes i hi]
    have := k.addr_lt_iff.mpr (Nat.lt_of_lt_of_le hi P.hi)
    have := P.len
    omega

theorem Aboard.setGroup (A : Aboard s b) (g : BitVec 4) :
    Aboard { s with group := g } (s7.setGroup b g) := by
  refine ⟨A.packed.setGroup g, ?_, (setGroup_length s7 b g).trans A.len⟩
  intro j o hj ho
  have e : 8 * j = 4 * (s7.stride * j) := by simp only [stride]; omega
  rw [e] at ho
  obtain ⟨o', h1, h2⟩ := setGroup_first s7 b g j ho
  rw [h2]
  exact A.quiet j o' hj (by rw [e]; exact h1)

theorem Aboard.setByte (A : Aboard s b) {i : Nat} (hi : i < s.payload.length) (v : BitVec 7) :
    ∃ b', s7.setByte b v i = .ok b' ∧ Aboard { s with payload := s.payload.set i v } b' := by
  have P := A.packed
  have hpay : P.valid.payload = s.payload := by
    unfold Valid.payload
    rw [P.restFrom_eq _ 0 rfl (by omega)]; simp
  obtain ⟨b', e1, e2, e3, -⟩ := P.valid.setByte v (i := i) (by rw [hpay]; exact hi)
  have V' := e2.valid P.valid
  have P' : Packed s7 s.group (s7.count s.payload.length) b' (s.payload.set i v) := by
    have := V'.packed (fun j hj => by
      unfold fillSize
      rw [if_neg (by omega)])
    have e : V'.payload = s.payload.set i v := by
      unfold Valid.payload
      rw [e3, hpay]
    rwa [e] at this
  have hl : (s.payload.set i v).length = s.payload.length := List.length_set
  refine ⟨b', e1, ?_, ?_, e2.1.trans A.len⟩
  · show Packed s7 s.group (s7.count (s.payload.set i v).length) b' _
    rw [hl]; exact P'
  · show Quiet (s7.count (s.payload.set i v).length) b'
    rw [hl]
    intro j o hj ho
    refine A.quiet j o hj ?_
    rw [← ho]
    have := e2.head j 0 (by decide)
    have e : 8 * j = 4 * (s7.stride * j) + 0 := by simp only [stride]; omega
    rw [e]
    exact this.symm

theorem Aboard.call (A : Aboard s b) (hs : s.fmt = .ump) (c : SxCall .s7)
    (hr : c.InRange (k := .s7) s.payload) :
    ∃ b' s', c.exec dbg b = .ok b' ∧ SxLeg.apply s (.call c) = some s' ∧ s'.fmt = .ump ∧
      Aboard s' b' := by
  obtain ⟨b0, c1, c2⟩ := Ready.start (N := none) (A.ready (dbg := dbg)) (by simp)
  have hI := inv_true s7 (fixed := false)
  have hsplice : ∀ (d : Src (BitVec 7)) (rb re : Bound), rb.first ≤ re.last s.payload.length →
      re.last s.payload.length ≤ s.payload.length → ∃ b',
        (s7.ops dbg .vec).splice b d rb re = .ok b' ∧
        Strict s7 dbg (fun _ => True) s.group none b'
          (spliced s.payload rb.first (re.last s.payload.length) d.items) :=
    fun d rb re h1 h2 => splice_vec s7 hI c1 c2 d rb re h1 h2
  have happ : ∀ d : Src (BitVec 7), ∃ b', ((s7.ops dbg .vec).insert b d s.payload.length) = .ok b' ∧
      Strict s7 dbg (fun _ => True) s.group none b' (s.payload ++ d.items) := by
    intro d
    have := hsplice d (.included s.payload.length) (.excluded s.payload.length) (Nat.le_refl _)
      (Nat.le_refl _)
    rw [spliced_append] at this
    exact this
  have hps : (s7.ops dbg .vec).payloadSize b = .ok s.payload.length := A.ready (dbg := dbg).size
  have done : ∀ {b' : Buf .ump} {l : List (BitVec 7)},
      Strict s7 dbg (fun _ => True) s.group none b' l →
      Aboard { s with payload := l, length := sysex7Length s.fmt l.length } b' := by
    intro b' l S
    have := S.aboard
    rw [hs]
    exact ⟨this.packed, this.quiet, this.len⟩
  cases c with
  | setGroup g => exact ⟨_, _, rfl, rfl, hs, A.setGroup g⟩
  | setPayload d =>
    obtain ⟨b', e, S⟩ := setPayload_vec s7 dbg hI (group_word (A.ready (dbg := dbg)).group) trivial d
    exact ⟨b', _, e, rfl, hs, done S⟩
  | splicePayload d rb re =>
    obtain ⟨b', e, S⟩ := hsplice d rb re hr.1 hr.2
    exact ⟨b', _, e, rfl, hs, done S⟩
  | insertPayload d i =>
    obtain ⟨b', e, S⟩ := hsplice d (.included i) (.excluded i) (Nat.le_refl _) hr
    exact ⟨b', _, e, rfl, hs, done S⟩
  | appendPayload d =>
    obtain ⟨b', e, S⟩ := happ d
    refine ⟨b', _, ?_, rfl, hs, done S⟩
    show (s7.ops dbg .vec).append b d = _
    unfold SxOps.append
    rw [hps]; exact e
  | appendByte v =>
    obtain ⟨b', e, S⟩ := happ ⟨[v], 1, some 1⟩
    refine ⟨b', _, ?_, rfl, hs, done S⟩
    show (s7.ops dbg .vec).appendByte b v = _
    unfold SxOps.appendByte
    rw [hps]; exact e
  | setPayloadByte i v =>
    obtain ⟨b', e, A'⟩ := A.setByte hr v
    exact ⟨b', _, e, rfl, hs, A'⟩

theorem Aboard.data (A : Aboard s b) : s7.data b = .ok (b.take (2 * s7.count s.payload.length)) :=
  A.packed.data_eq

theorem Aboard.send (A : Aboard s b) :
    s7.tryFrom (b.take (2 * s7.count s.payload.length)) =
        .ok (b.take (2 * s7.count s.payload.length)) ∧
      Aboard { s with length := sysex7Length .ump s.payload.length }
        (b.take (2 * s7.count s.payload.length)) := by
  have P := A.packed
  have hlen : (b.take (2 * s7.count s.payload.length)).length = 2 * s7.count s.payload.length := by
    rw [List.length_take]; have : 2 * s7.count s.payload.length ≤ b.length := P.len; omega
  refine ⟨?_, P.take, ?_, hlen.trans (sysex7Length_ump _).symm⟩
  · exact (tryFrom_iff _ _).mpr (P.take.valid.accepts hlen (fun hk => nomatch hk))
  · intro j o (hj : s7.count s.payload.length ≤ j) ho
    rw [octetAt_none (by omega)] at ho
    cases ho

end Sx

/-- The byte message on its journey. -/
def Sxb.Aboard (s : Sight) (b : Buf .bytes) : Prop :=
  ∃ rest : List (BitVec 8), b = sysexBytes s.payload ++ rest ∧ (∀ x ∈ rest, x.toNat < 128) ∧
    b.length = s.length

theorem length_sysexBytes (l : List (BitVec 7)) : (sysexBytes l).length = l.length + 2 := by
  simp [sysexBytes]

theorem Sxb.Aboard.exact (s : Sight) (hs : s.length = s.payload.length + 2) :
    Sxb.Aboard s (sysexBytes s.payload) :=
  ⟨[], by simp, by simp, by rw [length_sysexBytes, hs]⟩

theorem Sxb.Aboard.call {s : Sight} {b : Buf .bytes} (A : Sxb.Aboard s b) (hs : s.fmt = .bytes)
    (c : SxCall .s7) (hr : c.InRange (k := .s7) s.payload) (hg : ∀ g, c ≠ .setGroup g) :
    ∃ b' s', c.execBytes b = .ok b' ∧ SxLeg.apply s (.call c) = some s' ∧ s'.fmt = .bytes ∧
      Sxb.Aboard s' b' := by
  obtain ⟨rest, hb, hrest, hlen⟩ := A
  have h21 := fun d => C21_bytes_splice_partial b s.payload rest hb hrest d
  have hacc : Sxb.tryFrom b = .ok b := by rw [hb]; exact sysexBytes_accepted _ _
  have done : ∀ l : List (BitVec 7),
      Sxb.Aboard { s with payload := l, length := sysex7Length s.fmt l.length } (sysexBytes l) :=
    fun l => Sxb.Aboard.exact _ (by rw [hs]; rfl)
  cases c with
  | setGroup g => exact absurd rfl (hg g)
  | setPayload d => exact ⟨_, _, (C16_set_payload _ hacc d).1, rfl, hs, done _⟩
  | splicePayload d rb re => exact ⟨_, _, (h21 d).1 rb re hr.1 hr.2, rfl, hs, done _⟩
  | insertPayload d i => exact ⟨_, _, (h21 d).2.1 i hr, rfl, hs, done _⟩
  | appendPayload d => exact ⟨_, _, (h21 d).2.2.1, rfl, hs, done _⟩
  | appendByte v => exact ⟨_, _, (h21 ⟨[], 0, none⟩).2.2.2 v, rfl, hs, done _⟩
  | setPayloadByte i v =>
    refine ⟨_, _, C45_bytes_set_payload_byte b s.payload rest hb i hr v, rfl, hs, rest, rfl, hrest, ?_⟩
    rw [List.length_append, length_sysexBytes, List.length_set, ← length_sysexBytes,
      ← List.length_append, ← hb, hlen]

/-- The message on its journey. -/
def Aboard (s : Sight) : Held → Prop
  | ⟨.ump, b⟩ => s.fmt = .ump ∧ Sx.Aboard s b
  | ⟨.bytes, b⟩ => s.fmt = .bytes ∧ Sxb.Aboard s b

theorem Aboard.of {s : Sight} {x : Held} (A : Aboard s x) : s.Of x := by
  obtain ⟨m, b⟩ := x
  cases m with
  | ump => exact ⟨A.1, A.2.len, A.2.packed.holds⟩
  | bytes =>
    obtain ⟨h, rest, hb, -, hl⟩ := A
    exact ⟨h, hl, by rw [hb]; exact holdsBytes _ _⟩

/-- A message that fills its buffer can set out. -/
theorem aboard_ump {b : Buf .ump} {g : BitVec 4} {l : List (BitVec 7)} (H : Sx.s7.Holds b g l)
    (hd : Sx.s7.data b = .ok b) : Aboard ⟨.ump, g, l, b.length⟩ ⟨.ump, b⟩ := by
  obtain ⟨d, h1, h2, M, -⟩ := H.wire
  rw [hd] at h1
  cases h1
  rw [Sx.fill_eq .s7 _ _ (Nat.le_refl _)] at M
  have V := Sx.valid_iff.mpr M
  have P := V.packed (fun j hj => by unfold Sx.fillSize; rw [if_neg (by omega)])
  have hp : V.payload = l := by
    have := H.payload
    rw [V.frame.payloadList_eq] at this
    injection this
  rw [hp] at P
  refine ⟨rfl, P, ?_, rfl⟩
  intro j o (hj : Sx.s7.count l.length ≤ j) ho
  have := Sx.sysex7Length_ump l.length
  have h2 : b.length = sysex7Length .ump l.length := h2
  rw [octetAt_none (by omega)] at ho
  cases ho

theorem aboard_bytes {b : Buf .bytes} {l : List (BitVec 7)} (H : HoldsBytes b l)
    (hd : Sxb.data b = .ok b) : Aboard ⟨.bytes, 0, l, b.length⟩ ⟨.bytes, b⟩ := by
  have := H.data
  rw [hd] at this
  cases this
  exact ⟨rfl, Sxb.Aboard.exact _ (length_sysexBytes l)⟩

theorem leg_aboard {dbg : Bool} {s : Sight} {x : Held} (A : Aboard s x) (e : SxLeg)
    (hl : e.Legal s) :
    (e.apply s = none → e.exec dbg x = .err .bufferOverflow) ∧
    ∀ s', e.apply s = some s' → ∃ y, e.exec dbg x = .ok y ∧ Aboard s' y := by
  obtain ⟨m, b⟩ := x
  cases m with
  | ump =>
    obtain ⟨hs, A⟩ := A
    cases e with
    | call c =>
      obtain ⟨b', s', h1, h2, h3, h4⟩ := A.call (dbg := dbg) hs c hl.1
      rw [h2]
      refine ⟨(fun h => nomatch h), fun t ht => ?_⟩
      cases ht
      refine ⟨⟨.ump, b'⟩, ?_, h3, h4⟩
      show (c.exec dbg b >>= _) = _
      rw [h1]; rfl
    | rebuffer =>
      refine ⟨(fun h => nomatch h), fun t ht => ?_⟩
      cases ht
      exact ⟨_, rfl, hs, A⟩
    | visit n =>
      have hx : SxLeg.exec dbg (.visit n) ⟨.ump, b⟩ = ((UmpKind.sysex .s7).tryRebufferArray n b >>=
        fun c => .ok ⟨.ump, c⟩) := rfl
      have ha : SxLeg.apply s (.visit n) = if s.length ≤ n then some { s with length := n } else none :=
        rfl
      rw [hx, ha]
      unfold UmpKind.tryRebufferArray
      rw [A.len]
      by_cases h : s.length ≤ n
      · rw [if_pos h, if_neg (by omega)]
        refine ⟨(fun h => nomatch h), fun t ht => ?_⟩
        cases ht
        exact ⟨_, rfl, hs, A.packed.append _, A.quiet.append _, by
          rw [List.length_append, List.length_replicate, A.len]; show _ = n; omega⟩
      · rw [if_neg h, if_pos (by omega)]
        exact ⟨fun _ => rfl, fun t ht => nomatch ht⟩
    | send =>
      refine ⟨(fun h => nomatch h), fun t ht => ?_⟩
      cases ht
      obtain ⟨h1, h2⟩ := A.send
      refine ⟨⟨.ump, _⟩, ?_, hs, h2.packed, h2.quiet, by rw [hs]; exact h2.len⟩
      show (Sx.s7.data b >>= fun d => Sx.s7.tryFrom d >>= _) = _
      rw [A.data]
      simp only [Res.ok_bind]
      rw [h1]; rfl
    | convert =>
      refine ⟨(fun h => nomatch h), fun t ht => ?_⟩
      cases ht
      refine ⟨⟨.bytes, sysexBytes s.payload⟩, ?_, by rw [hs]; rfl, Sxb.Aboard.exact _ (by rw [hs]; rfl)⟩
      show (Sxb.fromUmp b >>= _) = _
      rw [C25_ump_to_bytes b _ _ A.packed.isMessage s.payload A.packed.payloadList_ok]; rfl
  | bytes =>
    obtain ⟨hs, A⟩ := A
    cases e with
    | call c =>
      obtain ⟨b', s', h1, h2, h3, h4⟩ := A.call hs c hl.1
        (fun g h => by have := hl.2 g h; rw [hs] at this; cases this)
      rw [h2]
      refine ⟨(fun h => nomatch h), fun t ht => ?_⟩
      cases ht
      refine ⟨⟨.bytes, b'⟩, ?_, h3, h4⟩
      show (c.execBytes b >>= _) = _
      rw [h1]; rfl
    | rebuffer =>
      refine ⟨(fun h => nomatch h), fun t ht => ?_⟩
      cases ht
      exact ⟨_, rfl, hs, A⟩
    | visit n =>
      obtain ⟨rest, hb, hrest, hlen⟩ := A
      have hx : SxLeg.exec dbg (.visit n) ⟨.bytes, b⟩ = (BytesKind.sysex7.tryRebufferArray n b >>=
        fun c => .ok ⟨.bytes, c⟩) := rfl
      have ha : SxLeg.apply s (.visit n) = if s.length ≤ n then some { s with length := n } else none :=
        rfl
      rw [hx, ha]
      unfold BytesKind.tryRebufferArray
      rw [hlen]
      by_cases h : s.length ≤ n
      · rw [if_pos h, if_neg (by omega)]
        refine ⟨(fun h => nomatch h), fun t ht => ?_⟩
        cases ht
        refine ⟨_, rfl, hs, rest ++ List.replicate (n - s.length) 0, ?_, ?_, ?_⟩
        · rw [hb, List.append_assoc]
        · intro x hx
          rcases List.mem_append.mp hx with hx | hx
          · exact hrest x hx
          · rw [(List.mem_replicate.mp hx).2]; decide
        · rw [List.length_append, List.length_replicate, hlen]; show _ = n; omega
      · rw [if_neg h, if_pos (by omega)]
        exact ⟨fun _ => rfl, fun t ht => nomatch ht⟩
    | send =>
      obtain ⟨rest, hb, hrest, hlen⟩ := A
      refine ⟨(fun h => nomatch h), fun t ht => ?_⟩
      cases ht
      refine ⟨⟨.bytes, sysexBytes s.payload⟩, ?_, hs, Sxb.Aboard.exact _ (by rw [hs]; rfl)⟩
      show (Sxb.data b >>= fun d => Sxb.tryFrom d >>= _) = _
      have hacc := sysexBytes_accepted s.payload []
      rw [List.append_nil] at hacc
      rw [hb, (holdsBytes _ _).data]
      simp only [Res.ok_bind]
      rw [hacc]; rfl
    | convert =>
      obtain ⟨rest, hb, hrest, hlen⟩ := A
      refine ⟨(fun h => nomatch h), fun t ht => ?_⟩
      cases ht
      have hacc : Sxb.tryFrom b = .ok b := by rw [hb]; exact sysexBytes_accepted _ _
      have hp : Sxb.payloadList b = .ok s.payload := by rw [hb]; exact (holdsBytes _ _).payload
      obtain ⟨b', h1, h2, h3⟩ := C25_bytes_to_ump dbg b hacc s.payload hp
      have A' := (aboard_ump h2 h3).2
      refine ⟨⟨.ump, b'⟩, ?_, by rw [hs]; rfl, A'.packed, A'.quiet, ?_⟩
      · show (Sxb.fromBytes dbg b >>= _) = _
        rw [h1]; rfl
      · rw [hs]
        obtain ⟨d, e1, e2, -⟩ := h2.wire
        rw [h3] at e1
        cases e1
        exact e2

theorem legs_aboard {dbg : Bool} : ∀ (es : List SxLeg) {s : Sight} {x : Held}, Aboard s x →
    SxLeg.AllLegal s es →
    (SxLeg.applyAll s es = none → SxLeg.execAll dbg es x = .err .bufferOverflow) ∧
    ∀ s', SxLeg.applyAll s es = some s' → ∃ y, SxLeg.execAll dbg es x = .ok y ∧ Aboard s' y
  | [], _, x, A, _ => ⟨(fun h => nomatch h), fun s' h => by cases h; exact ⟨x, rfl, A⟩⟩
  | e :: es, s, x, A, hl => by
    obtain ⟨h1, h2⟩ := leg_aboard (dbg := dbg) A e hl.1
    have hx : SxLeg.execAll dbg (e :: es) x = (e.exec dbg x >>= fun y => SxLeg.execAll dbg es y) := rfl
    have ha : SxLeg.applyAll s (e :: es) = (e.apply s >>= fun s => SxLeg.applyAll s es) := rfl
    rw [hx, ha]
    cases hs : e.apply s with
    | none =>
      rw [h1 hs]
      exact ⟨fun _ => rfl, fun s' h => nomatch h⟩
    | some t =>
      obtain ⟨y, h3, h4⟩ := h2 t hs
      rw [h3]
      exact legs_aboard es h4 (hl.2 t hs)

end Midi2
