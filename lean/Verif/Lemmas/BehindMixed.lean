import Verif.Spec.BehindMixed
import Verif.Props.BehindPayload
import Verif.Props.BehindText

/-! # Lemmas: messages of all kinds in a part of a larger array of words -/

namespace Midi2

namespace Sx

theorem RunBehind.one {k : Sx} {b : Buf .ump} {n : Nat}
    (h : RunBehind k.stride k.layout.type b n)
    (hf : ∀ i w, k.stride ≤ i → b[i]? = some w → field w 0 4 ≠ k.layout.type) : n = 1 := by
  apply Decidable.byContradiction
  intro hn
  have := h.pos
  have e := h.same 1 (by omega) (by omega)
  rw [Nat.mul_one] at e
  unfold fieldAt at e
  obtain ⟨w, w1, w2⟩ := Option.map_eq_some_iff.mp e
  exact hf _ w (Nat.le_refl _) w1 w2

/-- A new message with a group at the front of an array without packets of its type. -/
theorem fresh_front (k : Sx) (b : Buf .ump) (g : BitVec 4) (hb : k.stride ≤ b.length)
    (hf : ∀ w ∈ b, field w 0 4 ≠ k.layout.type) :
    ∃ x, k.tryNewWithBuffer b = .ok x ∧ (k.setGroup x g).length = b.length ∧
      (∀ i, k.stride ≤ i → (k.setGroup x g)[i]? = b[i]?) ∧
      Packed k g 1 (k.setGroup x g) ([] : List k.Byte) ∧
      ∀ a, 2 ≤ a → a < 4 * k.stride → octetAt (k.setGroup x g) a = some 0 := by
  obtain ⟨x, e1, S⟩ := tryNewWithBuffer_strict k hb
  obtain ⟨x', n, e1', e2, R, B⟩ := (C77_sysex_exactly k b).2 (by rw [words_eq]; exact hb)
  rw [e1] at e1'
  cases e1'
  rw [words_eq] at R
  have hs := k.stride_pos
  have hfi : ∀ i w, k.stride ≤ i → b[i]? = some w → field w 0 4 ≠ k.layout.type :=
    fun i w _ h => hf w (List.mem_of_getElem? h)
  have hn := RunBehind.one R hfi
  subst hn
  obtain ⟨B1, B2⟩ := B
  rw [words_eq] at B2
  have hxb : ∀ i, k.stride ≤ i → x[i]? = b[i]? := by
    intro i hi
    by_cases hl : i < b.length
    · refine (B2 i hi hl).1 (fun c => ?_)
      have := Nat.div_pos hi hs
      omega
    · rw [List.getElem?_eq_none (by omega), List.getElem?_eq_none (by omega)]
  have P := S.packed
  rw [P.data_eq] at e2
  have hc0 : k.count ([] : List k.Byte).length = 1 := rfl
  rw [hc0, Nat.mul_one] at e2
  have e2 : x.take k.stride = emptySysex k := Res.ok.inj e2
  have P : Packed k 0 1 x ([] : List k.Byte) := P
  have hty : fieldAt x 0 0 4 = some k.layout.type := by
    have : fieldAt (x.take k.stride) 0 0 4 = fieldAt x 0 0 4 := by
      unfold fieldAt
      rw [List.getElem?_take_of_lt hs]
    rw [← this, e2]
    cases k <;> decide
  obtain ⟨n, R', L, G⟩ := C77_sysex_set_group_exactly k x g (by rw [words_eq, B1]; exact hb) hty
  rw [words_eq] at R' G
  have hn := RunBehind.one R' (fun i w hi h => hfi i w hi (by rw [← hxb i hi]; exact h))
  subst hn
  have hgi : ∀ i, 0 < i → (k.setGroup x g)[i]? = x[i]? := by
    intro i hi
    by_cases hl : i < x.length
    · refine (G i hl).1 (fun c => ?_)
      have h1 := Nat.div_add_mod i k.stride
      have h2 : i / k.stride = 0 := Nat.lt_one_iff.mp c.2
      rw [h2, c.1, Nat.mul_zero] at h1
      omega
    · rw [List.getElem?_eq_none (by omega), List.getElem?_eq_none (by omega)]
  refine ⟨x, e1, by rw [L, B1], fun i hi => by rw [hgi i (by omega), hxb i hi],
    P.setGroup g, fun a h2 ha => ?_⟩
  have hx0 : octetAt x a = some 0 := by
    have e : octetAt (x.take k.stride) a = octetAt x a := octetAt_take x k.stride a ha
    rw [← e, e2]
    have : ∀ a, 2 ≤ a → a < 4 * k.stride → octetAt (emptySysex k) a = some 0 := by
      cases k
      · intro a h2 ha
        have ha : a < 8 := ha
        have : a = 2 ∨ a = 3 ∨ a = 4 ∨ a = 5 ∨ a = 6 ∨ a = 7 := by omega
        rcases this with rfl | rfl | rfl | rfl | rfl | rfl <;> decide
      · intro a h2 ha
        have ha : a < 16 := ha
        have : a = 2 ∨ a = 3 ∨ a = 4 ∨ a = 5 ∨ a = 6 ∨ a = 7 ∨ a = 8 ∨ a = 9 ∨ a = 10 ∨ a = 11 ∨
          a = 12 ∨ a = 13 ∨ a = 14 ∨ a = 15 := by omega
        rcases this with rfl | rfl | rfl | rfl | rfl | rfl | rfl | rfl | rfl | rfl | rfl | rfl |
          rfl | rfl <;> decide
    exact this a h2 ha
  rw [← hx0]
  by_cases h4 : 4 ≤ a
  · unfold octetAt
    rw [hgi (a / 4) (by omega)]
  · have hx : 0 < x.length := by omega
    have h0 := (G 0 hx).2 (Nat.zero_mod _) (by rw [Nat.zero_div]; omega)
    have hlg : 0 < (k.setGroup x g).length := by omega
    have h8 := h0.2.2
    rw [fieldAt_ok hx, fieldAt_ok hlg] at h8
    have h8 := Option.some.inj h8
    unfold octetAt
    rw [show a / 4 = 0 by omega, show a % 4 = a by omega, List.getElem?_eq_getElem hx,
      List.getElem?_eq_getElem hlg, Option.map_some, Option.map_some]
    congr 1
    apply BitVec.eq_of_toNat_eq
    rw [octet_field _ (by omega), octet_field _ (by omega)]
    have : ∀ w : BitVec 32, field w (8 * a) 8 = field w 8 24 / 2 ^ (24 - 8 * a) % 256 := by
      intro w
      unfold field
      have : a = 2 ∨ a = 3 := by omega
      rcases this with rfl | rfl <;> omega
    rw [this, this, h8]

theorem sysex_front (k : Sx) (dbg : Bool) (b : Buf .ump) (g : BitVec 4) (l : List k.Byte)
    (hf : ∀ w ∈ b, field w 0 4 ≠ k.layout.type) :
    ((UmpJob.sysex k g l).size ≤ b.length → ∃ m,
      (UmpJob.sysex k g l).build dbg b = .ok (m ++ b.drop (UmpJob.sysex k g l).size, m) ∧
      m.length = (UmpJob.sysex k g l).size ∧ (UmpJob.sysex k g l).Written m ∧
      ((∀ w ∈ b, w = 0) → (UmpJob.sysex k g l).Exact m)) ∧
    (b.length < (UmpJob.sysex k g l).size →
      (UmpJob.sysex k g l).build dbg b = .err .bufferOverflow) := by
  have hsz : (UmpJob.sysex k g l).size = k.stride * k.count l.length := by
    have := wireLength_eq k l.length
    unfold SysexLayout.wireLength at this
    show k.layout.words * (k.layout.fill l.length).length = _
    rw [Nat.mul_assoc] at this
    omega
  rw [hsz]
  have hs := k.stride_pos
  have hcs : k.stride ≤ k.stride * k.count l.length := by
    have := Nat.mul_le_mul_left k.stride (k.count_pos l.length); omega
  by_cases hb : k.stride ≤ b.length
  · obtain ⟨x, e1, hl, hxi, P, hz⟩ := fresh_front k b g hb hf
    generalize hx2 : k.setGroup x g = x2 at hl hxi P hz
    have hxf : ∀ i w, k.stride ≤ i → x2[i]? = some w → field w 0 4 ≠ k.layout.type :=
      fun i w hi h => hf w (List.mem_of_getElem? (by rw [← hxi i hi]; exact h))
    have ht : TidyFrom k k.stride x2 := by
      rw [tidyFrom_iff]
      rintro i h1 h2 ⟨h3, _⟩
      unfold fieldAt at h3
      obtain ⟨w, w1, w2⟩ := Option.map_eq_some_iff.mp h3
      exact hxf _ w h1 w1 w2
    have hb2 : k.stride ≤ x2.length := by omega
    have hbuild : (UmpJob.sysex k g l).build dbg b =
        ((k.ops dbg .fixed).trySetPayload x2 ⟨l, l.length, some l.length⟩ >>= fun r =>
          match r with
          | (x, none) => (k.data x >>= fun y => Res.ok (x, y))
          | (_, some e) => .err e) := by
      simp only [UmpJob.build]
      rw [e1, Res.ok_bind, hx2]
      rfl
    have key := trySetPayload_fixed k (inv_true k) hb2 P.group_eq trivial (fun _ : dbg = true => ht)
      ⟨l, l.length, some l.length⟩
    rw [hl] at key
    refine ⟨fun hr => ?_, fun hr => ?_⟩
    · obtain ⟨b', n1, n2, n3, n4, n5, n6⟩ := C77_sysex_set_payload_partial k dbg x2 g P.group_ok
        (fun _ => by rw [words_eq]; exact tidyFrom_iff.mp ht) ⟨l, l.length, some l.length⟩ rfl
        (by rw [wireLength_eq, hl]; show 4 * (k.stride * k.count l.length) ≤ _; omega)
      obtain ⟨n7, n8⟩ := n6
      obtain ⟨b'', e, S⟩ := key.1 hr
      rw [n2] at e
      cases e
      have S : Strict k dbg _ g _ b' l := S
      have hml : n1.length = k.stride * k.count l.length := by
        rw [wireLength_eq] at n5
        have n5 : 4 * n1.length = 4 * (k.stride * k.count l.length) := n5
        omega
      have htk : b'.take (k.stride * k.count l.length) = n1 := by
        rw [n8]; exact List.take_left' hml
      have hdrop : x2.drop n1.length = b.drop (k.stride * k.count l.length) := by
        apply List.ext_getElem?
        intro i
        rw [List.getElem?_drop, List.getElem?_drop, hml, hxi _ (by omega)]
      rw [hdrop] at n8
      have Pm : Packed k g (k.count l.length) n1 l := by
        have := S.packed.take
        rwa [htk] at this
      refine ⟨n1, ?_, hml, ⟨Pm.holds, ?_⟩, fun hzero => ?_⟩
      · rw [hbuild, n2, Res.ok_bind]
        show (k.data b' >>= _) = _
        rw [n4, Res.ok_bind, n8]
      · rw [Pm.data_eq, ← hml, List.take_length]
      · have hbz : ∀ a o, octetAt b a = some o → o = 0 := by
          intro a o ho
          obtain ⟨w, w1, w2⟩ := Option.map_eq_some_iff.mp ho
          rw [hzero w (List.mem_of_getElem? w1)] at w2
          rw [← w2]
          have : ∀ i, i < 4 → U32.octet 0 i = 0 := by decide
          exact this _ (Nat.mod_lt _ (by omega))
        have hx2z : ∀ a o, 2 ≤ a → octetAt x2 a = some o → o = 0 := by
          intro a o h2 ho
          by_cases ha : a < 4 * k.stride
          · rw [hz a h2 ha] at ho; exact (Option.some.inj ho).symm
          · refine hbz a o ?_
            rw [← ho]
            unfold octetAt
            rw [hxi _ (by omega)]
        have hZ : ZeroId k x2 := by
          refine ⟨fun _ j o ho => hx2z _ o (by omega) ho, fun hk a o ho => ?_⟩
          subst hk
          by_cases ha : 2 ≤ a
          · rw [hx2z a o ha ho]; decide
          · have h0 := P.oct0 0 P.pos
            have h1 := P.oct1 0 P.pos
            rw [Nat.mul_zero, Nat.mul_zero] at h0 h1
            have : a = 0 ∨ a = 1 := by omega
            rcases this with rfl | rfl
            · rw [h0] at ho
              rw [← Option.some.inj ho]
              have : ∀ g : BitVec 4, (typOctet s7 g).toNat < 128 := by decide
              exact this g
            · rw [h1] at ho
              rw [← Option.some.inj ho]
              decide
        obtain ⟨b'', e, SZ⟩ := (trySetPayload_fixed k (inv_zeroId k) hb2 P.group_eq hZ
          (fun _ : dbg = true => ht) ⟨l, l.length, some l.length⟩).1 (by rw [hl]; exact hr)
        rw [n2] at e
        cases e
        have SZ : Strict k dbg (ZeroId k) g _ b' l := SZ
        refine ⟨?_, ?_⟩
        · rw [← htk]
          by_cases hcap : k.cap ≤ l.length
          · exact SZ.wire_full hcap
          · have K := trySetPayload_keeps k dbg (⟨l, l.length, some l.length⟩ : Src k.Byte) rfl
              (by rw [hl]; exact hr) P.group_eq n2
            have hspan : k.span l.length = k.off + l.length := by
              unfold span; rw [if_pos (by omega)]
            have hcnt : k.count l.length = 1 := k.count_one (by omega)
            apply List.ext_getElem?
            intro a
            rw [octets_getElem?]
            by_cases h : a < 4 * (k.stride * k.count l.length)
            · rw [octetAt_take _ _ _ h]
              refine SZ.packed.wire_getElem? SZ.whole.inv a h (fun i hi hai => ?_)
              rw [hcnt, Nat.mul_one] at h
              have hic : i < k.cap := by
                rw [hai, ← Nat.mul_one k.stride, k.addr_lt_iff, Nat.mul_one] at h
                exact h
              have hadr : k.addr i = k.off + i := by
                unfold addr
                rw [Nat.div_eq_of_lt hic]; omega
              rw [K.2 a (by show k.span l.length ≤ a; omega)]
              have := k.two_le_off
              exact hz a (by omega) h
            · rw [octetAt_none (by rw [List.length_take]; omega), List.getElem?_eq_none]
              · rfl
              · rw [length_wire, List.length_map]; omega
        · have := SZ.packed.accepted SZ.whole.inv
          rwa [htk] at this
    · obtain ⟨b', e, _⟩ := key.2 hr
      rw [hbuild, e, Res.ok_bind]
  · refine ⟨fun hr => by omega, fun _ => ?_⟩
    simp only [UmpJob.build]
    rw [(C77_sysex_exactly k b).1 (by rw [words_eq]; omega)]
    rfl

end Sx

/-- The words behind a message being built have the types they had. -/
theorem same_types {d : MsgDesc} (hn : d.name ≠ "ump_stream::FunctionBlockDiscovery") {b p s : Buf .ump}
    (hb : d.umpSize ≤ b.length) (hx : d.tryNewWithBuffer .ump b = .ok (p ++ s))
    (hp : p.length = d.umpSize) (hs : s.length = b.length - d.umpSize)
    (hd' : d ∉ Msg.streamAll → s = b.drop d.umpSize) :
    ∀ w ∈ s, ∃ w' ∈ b, field w 0 4 = field w' 0 4 := by
  intro w hw
  by_cases hst : d ∈ Msg.streamAll
  · have h4u : ∀ d ∈ Msg.streamAll, d.name ≠ "ump_stream::FunctionBlockDiscovery" →
        d.umpSize = 4 := by decide +kernel
    have h4u := h4u d hst hn
    obtain ⟨x, n, st, x1, _, ⟨x2, x3⟩, _⟩ := C77_stream_exactly hst b (by omega)
    rw [hx] at x1; cases x1
    obtain ⟨i, hi, rfl⟩ := List.getElem_of_mem hw
    have hlen : d.umpSize + i < b.length := by omega
    obtain ⟨y1, y2⟩ := x3 (d.umpSize + i) (by omega) hlen
    have e : fieldAt (p ++ s) (d.umpSize + i) 0 4 = fieldAt b (d.umpSize + i) 0 4 := by
      by_cases hh : HeadAt 4 b (d.umpSize + i)
      · exact (y2 hh).1
      · unfold fieldAt; rw [y1 hh]
    have e1 : (p ++ s)[d.umpSize + i]? = some s[i] := by
      rw [List.getElem?_append_right (by omega), ← List.getElem?_eq_getElem hi]
      congr 1; omega
    rw [fieldAt_ext e1, fieldAt_ok hlen] at e
    exact ⟨_, List.getElem_mem _, Option.some.inj e⟩
  · rw [hd' hst] at hw
    exact ⟨w, List.mem_of_mem_drop hw, rfl⟩

theorem FlexBehind.type {g n : Nat} {b x : Buf .ump} (h : FlexBehind g n b x) {i : Nat}
    (hi : 4 ≤ i) : fieldAt x i 0 4 = fieldAt b i 0 4 := by
  by_cases hl : i < b.length
  · obtain ⟨a1, a2⟩ := h.2 i hi hl
    by_cases hc : i % 4 = 0 ∧ i / 4 < n
    · exact (a2 hc.1 hc.2).1
    · unfold fieldAt; rw [a1 hc]
  · unfold fieldAt
    rw [List.getElem?_eq_none (by have := h.1; omega), List.getElem?_eq_none (by omega)]

theorem FlexBehind.kept {g n : Nat} {b x : Buf .ump} (h : FlexBehind g n b x)
    (R : RunBehind 4 13 b n) (hz : ∀ i, 4 ≤ i → fieldAt b i 0 4 ≠ some 13) {i : Nat}
    (hi : 4 ≤ i) : x[i]? = b[i]? := by
  by_cases hl : i < b.length
  · refine (h.2 i hi hl).1 (fun hc => ?_)
    have := R.same (i / 4) (by omega) hc.2
    rw [show 4 * (i / 4) = i by omega] at this
    exact hz i hi this
  · rw [List.getElem?_eq_none (by have := h.1; omega), List.getElem?_eq_none (by omega)]

theorem zeros_type {b : Buf .ump} (hz : ∀ w ∈ b, w = 0) {t : Nat} (ht : t ≠ 0) (i : Nat) :
    fieldAt b i 0 4 ≠ some t := by
  intro h
  unfold fieldAt at h
  obtain ⟨w, w1, w2⟩ := Option.map_eq_some_iff.mp h
  rw [hz w (List.mem_of_getElem? w1)] at w2
  exact ht (w2.symm.trans (by decide))

/-- A flex data text at the front of an array. -/
theorem UmpJob.text_front (dbg : Bool) (t : FlexText) (g : BitVec 4) (c : Option (BitVec 4))
    (s : String) (b : Buf .ump) :
    (4 * textPackets 12 (utf8 s).length ≤ b.length → ∃ m r,
      (UmpJob.text t g c s).build dbg b = .ok (m ++ r, m) ∧
      m.length = 4 * textPackets 12 (utf8 s).length ∧ r.length = b.length - m.length ∧
      (UmpJob.text t g c s).Written m ∧ ((∀ w ∈ b, w = 0) → ∀ w ∈ r, w = 0) ∧
      ∀ w ∈ r, field w 0 4 = 0 ∨ ∃ w' ∈ b, field w 0 4 = field w' 0 4) ∧
    (b.length < 4 * textPackets 12 (utf8 s).length →
      (UmpJob.text t g c s).build dbg b = .err .bufferOverflow) := by
  have hpos := textPackets_pos (cap := 12) (n := (utf8 s).length) (by omega)
  by_cases hb : 4 ≤ b.length
  · obtain ⟨x, n, e1, e2, e3, e4, R, F⟩ := t.new_behind hb
    obtain ⟨g1, g2, n', R', F'⟩ := C77_flex_text_set_group_exactly t x e2 g
    obtain ⟨z, z1, z2, z3, z4⟩ := C77_flex_text_set_channel t _ g1 c
    have hz0 : ∀ i, i ≠ 0 → z[i]? = (FlexText.setGroup x g)[i]? := by
      intro i hi
      have := congrArg (fun l : List (BitVec 32) => l[i - 1]?) z4
      simp only [List.getElem?_drop] at this
      rwa [show 1 + (i - 1) = i by omega] at this
    have hzl : z.length = b.length := by
      have h1 := congrArg List.length z4
      simp only [List.length_drop] at h1
      have h2 := z3.len
      have h3 := g1.len
      have h4 := F'.1
      have h5 := F.1
      omega
    have hzg : FlexText.group z = .ok g := by
      have : FlexText.setChannel (FlexText.setGroup x g) c = .ok z := z1
      obtain ⟨w, w1, -⟩ := FlexText.backs_word g1
      rw [FlexText.setChannel_ok w1] at this
      cases this
      rw [FlexText.group_word w1] at g2
      rw [FlexText.group_word (List.getElem?_set_self (by have := g1.len; omega))]
      rw [← g2]
      congr 1
      rw [show (1 : Nat) = 2 * 0 + 1 from rfl, U32.nibble_octet_lo _ 0 (by omega),
        U32.nibble_octet_lo _ 0 (by omega), FlexText.octet_putChannel_ne _ _ (by omega) (by omega)]
    have htz : ∀ i, 4 ≤ i → fieldAt z i 0 4 = fieldAt b i 0 4 := by
      intro i hi
      rw [← F.type hi, ← F'.type hi]
      unfold fieldAt
      rw [hz0 i (by omega)]
    refine ⟨fun hr => ?_, fun hr => ?_⟩
    · obtain ⟨y, m, g', c', y1, y2, y3, y4, y5, y6, y7, y8, y9⟩ :=
        C77_flex_text_set_text_exactly t z z3 s (by rw [hzl]; exact hr)
      rw [hzg] at y3
      cases y3
      rw [z2] at y4
      cases y4
      have hbuild : (UmpJob.text t g c s).build dbg b = .ok (y, m) := by
        simp only [UmpJob.build]
        rw [e1, Res.ok_bind, z1, Res.ok_bind, y1, Res.ok_bind, y2]
        rfl
      have hy : y = m ++ y.drop m.length := by
        conv => lhs; rw [← List.take_append_drop m.length y, y7]
      have hget : ∀ w ∈ y.drop m.length, ∃ i, m.length ≤ i ∧ y[i]? = some w := by
        intro w hw
        obtain ⟨i, hi⟩ := List.mem_iff_getElem?.mp hw
        rw [List.getElem?_drop] at hi
        exact ⟨_, by omega, hi⟩
      refine ⟨m, y.drop m.length, by rw [hbuild, ← hy], y6, by rw [List.length_drop, y8, hzl],
        ⟨y5, ?_⟩, fun hz w hw => ?_, fun w hw => ?_⟩
      · obtain ⟨y', f1, f2, H⟩ := FlexText.trySetText_holds z3 hzg z2 s
          (by rw [hzl, ← strBytes_length]; exact hr)
        rw [y1] at f1
        cases f1
        have hd := H.data_eq
        rw [y2] at hd
        cases hd
        have HT := H.take
        rw [HT.data_eq, List.take_take, Nat.min_self]
      · obtain ⟨i, hi, hw⟩ := hget w hw
        rw [y9 i hi] at hw
        split at hw
        · exact (Option.some.inj hw).symm
        · have hx : ∀ i, 4 ≤ i → x[i]? = b[i]? := fun i hi =>
            F.kept R (fun i _ => zeros_type hz (by decide) i) hi
          rw [hz0 i (by omega), F'.kept R' (fun i hi => by
            unfold fieldAt; rw [hx i hi]; exact zeros_type hz (by decide) i) (by omega),
            hx i (by omega)] at hw
          exact hz w (List.mem_of_getElem? hw)
      · obtain ⟨i, hi, hw⟩ := hget w hw
        rw [y9 i hi] at hw
        split at hw
        · left; rw [← Option.some.inj hw]; decide
        · right
          have h1 := htz i (by omega)
          rw [fieldAt_ext hw] at h1
          unfold fieldAt at h1
          obtain ⟨w', w1, w2⟩ := Option.map_eq_some_iff.mp h1.symm
          exact ⟨w', List.mem_of_getElem? w1, w2.symm⟩
    · simp only [UmpJob.build]
      rw [e1, Res.ok_bind, z1, Res.ok_bind,
        FlexText.trySetText_overflow z s (by rw [hzl, ← strBytes_length]; exact hr)]
      rfl
  · refine ⟨fun hr => by omega, fun hr => ?_⟩
    simp only [UmpJob.build]
    rw [(C77_flex_text_new_exactly t b).1 (by omega)]
    rfl

/-- A stream text at the front of an array. -/
theorem UmpJob.name_front (dbg : Bool) (t : StreamText) (n : Option (BitVec 8)) (s : String)
    (ht : t ∈ StreamText.all) (hn : n.isSome → t = .functionBlockName) (b : Buf .ump) :
    (4 * textPackets t.capacity (utf8 s).length ≤ b.length → ∃ m r,
      (UmpJob.name t n s).build dbg b = .ok (m ++ r, m) ∧
      m.length = 4 * textPackets t.capacity (utf8 s).length ∧ r.length = b.length - m.length ∧
      (UmpJob.name t n s).Written m ∧ (n = none → (∀ w ∈ b, w = 0) → ∀ w ∈ r, w = 0) ∧
      ∀ w ∈ r, field w 0 4 = 0 ∨ ∃ w' ∈ b, field w 0 4 = field w' 0 4) ∧
    (b.length < 4 * textPackets t.capacity (utf8 s).length →
      (UmpJob.name t n s).build dbg b = .err .bufferOverflow) := by
  have K := StreamText.known_of_mem ht
  have ho := K.off
  have hcap := K.capacity_eq
  have hpos := textPackets_pos (cap := t.capacity) (n := (utf8 s).length) (by omega)
  by_cases hb : 4 ≤ b.length
  · obtain ⟨x, p, e1, e2, -, F, hblk⟩ := StreamText.new_behind K hb
    have hxl := F.1
    refine ⟨fun hr => ?_, fun hr => ?_⟩
    · obtain ⟨y, m0, -, y1, -, -, -, y6, -, y8, y9⟩ :=
        C77_stream_text_set_text_exactly t ht x e2 s (by rw [hxl]; exact hr)
      rw [y6] at y9
      obtain ⟨y', f1, f2, H⟩ := StreamText.trySetText_holds K e2 s
        (by rw [hxl, ← length_utf8, ← hcap]; exact hr)
      rw [y1] at f1
      cases f1
      -- the number
      obtain ⟨z, hz, hzl, HZ, hbehind⟩ : ∃ z, UmpJob.setNumber n y = z ∧ z.length = b.length ∧
          t.Holds z (fun _ => n.getD 0) (strBytes s) ∧
          ∀ i, 4 * textPackets t.capacity (utf8 s).length ≤ i →
            (i / 4 < b.length / 4 → ∃ w, z[i]? = some w ∧ field w 0 4 = 0 ∧ (n = none → w = 0)) ∧
            (b.length / 4 ≤ i / 4 → z[i]? = b[i]?) := by
        have hw8 : ∀ i, 4 * textPackets t.capacity (utf8 s).length ≤ i → b.length / 4 ≤ i / 4 →
            y[i]? = b[i]? := by
          intro i hi hl
          rw [y9 i hi, if_neg (by omega)]
          by_cases hlt : i < b.length
          · refine (F.2 i (by omega) hlt).1 (fun hh => ?_)
            have hh : i % 4 = 0 ∧ i + 4 ≤ b.length := hh
            omega
          · rw [List.getElem?_eq_none (by omega), List.getElem?_eq_none (by omega)]
        cases n with
        | none =>
          refine ⟨y, rfl, by omega, ?_, fun i hi => ⟨fun hl => ⟨0, ?_, by decide, fun _ => rfl⟩,
            hw8 i hi⟩⟩
          · by_cases h1 : t.offset = 1
            · refine H.congr_block (fun j hj => ?_)
              refine hblk h1 j ?_
              rw [hcap, length_utf8] at hr
              omega
            · exact ⟨H.whole, H.head, fun h => absurd h h1, H.slot⟩
          · rw [y9 i hi, if_pos (by omega)]
        | some n =>
          have h1 : t.offset = 1 := by rw [hn rfl]; rfl
          refine ⟨StreamText.setBlock y n, rfl, by rw [StreamText.setBlock_length]; omega, H.setBlock h1 n,
            fun i hi => ⟨fun hl => ?_, fun hl => ?_⟩⟩
          · have hy0 := y9 i hi
            rw [if_pos (by omega)] at hy0
            by_cases h0 : i % 4 = 0
            · refine ⟨U32.setOctet 0 2 n, ?_, ?_, fun h => by cases h⟩
              · rw [StreamText.setBlock_word, if_pos (by omega), hy0]; rfl
              · rw [U32.setOctet_eq, field_ins_ne _ _ _ (by omega)]; decide
            · refine ⟨0, ?_, by decide, fun h => by cases h⟩
              rw [StreamText.setBlock_word, if_neg (by omega), hy0]
          · rw [StreamText.setBlock_word, if_neg (by omega), hw8 i hi hl]
      obtain ⟨m, m1, m2, m3⟩ := StreamText.isEncoding_of_holds K HZ
      have hm := HZ.data_eq K
      have hbuild : (UmpJob.name t n s).build dbg b = .ok (z, m) := by
        simp only [UmpJob.build]
        rw [e1, Res.ok_bind, y1, Res.ok_bind, hz, m2]
        rfl
      rw [m2] at hm
      have hm : m = z.take (4 * textPackets (14 - t.offset) (strBytes s).length) := Res.ok.inj hm
      rw [← length_utf8, ← hcap] at hm
      have hy : z = m ++ z.drop m.length := by
        rw [m3, hm, List.take_append_drop]
      have hget : ∀ w ∈ z.drop m.length, ∃ i, m.length ≤ i ∧ z[i]? = some w := by
        intro w hw
        obtain ⟨i, hi⟩ := List.mem_iff_getElem?.mp hw
        rw [List.getElem?_drop] at hi
        exact ⟨_, by omega, hi⟩
      have HT := HZ.take K
      rw [← length_utf8, ← hcap, ← hm] at HT
      refine ⟨m, z.drop m.length, by rw [hbuild, ← hy], m3, by rw [List.length_drop, hzl],
        ⟨m1, ?_, ?_, HT.text_shown K⟩, fun hn0 hz0 w hw => ?_, fun w hw => ?_⟩
      · rw [HT.data_eq K, List.take_of_length_le]
        rw [m3, hcap, length_utf8]; exact Nat.le_refl _
      · have := (HZ.sent K).mpr (fun _ _ _ => rfl)
        rwa [← length_utf8, ← hcap, ← hm] at this
      · obtain ⟨i, hi, hw⟩ := hget w hw
        rw [m3] at hi
        obtain ⟨a1, a2⟩ := hbehind i hi
        by_cases hl : i / 4 < b.length / 4
        · obtain ⟨w', w1, -, w3⟩ := a1 hl
          rw [hw] at w1
          cases w1
          exact w3 hn0
        · rw [a2 (by omega)] at hw
          exact hz0 w (List.mem_of_getElem? hw)
      · obtain ⟨i, hi, hw⟩ := hget w hw
        rw [m3] at hi
        obtain ⟨a1, a2⟩ := hbehind i hi
        by_cases hl : i / 4 < b.length / 4
        · obtain ⟨w', w1, w2, -⟩ := a1 hl
          rw [hw] at w1
          cases w1
          exact Or.inl w2
        · rw [a2 (by omega)] at hw
          exact Or.inr ⟨w, List.mem_of_getElem? hw, rfl⟩
    · simp only [UmpJob.build]
      rw [e1, Res.ok_bind, StreamText.trySetText_overflow K x s
        (by rw [hxl, ← length_utf8, ← hcap]; exact hr)]
      rfl
  · refine ⟨fun hr => by omega, fun hr => ?_⟩
    simp only [UmpJob.build]
    rw [(C77_stream_text_new_exactly t ht b).1 (by omega)]
    rfl

/-- One message at the front of an array. -/
theorem UmpJob.build_front (dbg : Bool) (j : UmpJob) (hj : j.Legal) (b : List (BitVec 32))
    (hf : j.Fits b) :
    (j.size ≤ b.length → ∃ m s, j.build dbg b = .ok (m ++ s, m) ∧ m.length = j.size ∧
      s.length = b.length - j.size ∧ (j.KeepsRest → s = b.drop j.size) ∧ j.Written m ∧
      ((∀ w ∈ b, w = 0) → j.Exact m) ∧ (j.KeepsZeros → (∀ w ∈ b, w = 0) → ∀ w ∈ s, w = 0) ∧
      ∀ w ∈ s, field w 0 4 = 0 ∨ ∃ w' ∈ b, field w 0 4 = field w' 0 4) ∧
    (b.length < j.size → j.build dbg b = .err .bufferOverflow) := by
  cases j with
  | sysex k g l =>
    obtain ⟨h1, h2⟩ := Sx.sysex_front k dbg b g l hf
    refine ⟨fun h => ?_, h2⟩
    obtain ⟨m, e1, e2, e3, e4⟩ := h1 h
    exact ⟨m, _, e1, e2, List.length_drop, fun _ => rfl, e3, e4,
      fun _ hz w hw => hz w (List.mem_of_mem_drop hw),
      fun w hw => .inr ⟨w, List.mem_of_mem_drop hw, rfl⟩⟩
  | text t g c s =>
    obtain ⟨h1, h2⟩ := UmpJob.text_front dbg t g c s b
    refine ⟨fun h => ?_, h2⟩
    obtain ⟨m, r, e1, e2, e3, e4, e5, e6⟩ := h1 h
    exact ⟨m, r, e1, e2, by rw [e3, e2]; rfl, fun h => h.elim, e4, fun _ => trivial,
      fun _ => e5, e6⟩
  | name t n s =>
    obtain ⟨h1, h2⟩ := UmpJob.name_front dbg t n s hj.1 hj.2 b
    refine ⟨fun h => ?_, h2⟩
    obtain ⟨m, r, e1, e2, e3, e4, e5, e6⟩ := h1 h
    exact ⟨m, r, e1, e2, by rw [e3, e2]; rfl, fun h => h.elim, e4, fun _ => trivial, e5, e6⟩
  | fixed d calls =>
    obtain ⟨hd, hn, hc⟩ := hj
    refine ⟨fun hb => ?_, fun hb => ?_⟩
    · have hb : d.umpSize ≤ b.length := hb
      obtain ⟨m, s, p, h1, h2, h3, h4, h5, h6, h7, h8, h9⟩ := behind_front hd hn b hb
        (fun h => quiet_of fun w hw => hf h w (List.mem_of_mem_drop hw)) calls hc
      refine ⟨m, s, ?_, h2, h6, fun h => h7 h, ⟨h1, h8, h9⟩, fun _ => trivial,
        fun h hz w hw => ?_, fun w hw => .inr (same_types hn hb h3 h4 h6 h7 w hw)⟩
      rotate_left
      · rw [h7 h] at hw
        exact hz w (List.mem_of_mem_drop hw)
      simp only [build]
      rw [h3, Res.ok_bind, h5, Res.ok_bind, data_ok (m := .ump) (d := d)
        (show d.umpSize ≤ (m ++ s).length by rw [List.length_append]; omega)]
      show Res.ok (m ++ s, (m ++ s).take d.umpSize) = _
      rw [List.take_left' h2]
    · have hb : b.length < d.umpSize := hb
      simp only [build]
      rw [(C08_fixed_too_short d .ump b 0).1 hb]
      rfl

end Midi2
