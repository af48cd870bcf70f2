import Verif.Spec.Gateway
import Verif.Props.StreamsBytes
import Verif.Props.Follow
import Verif.Props.MoreExact
import Verif.Props.BytesExact
import Verif.Props.ConvertWords
import Verif.Props.Enums
import Verif.Props.EndToEnd
import Verif.Lemmas.Effort

/-! Single messages passing a gateway. -/

namespace Midi2.Gateway

open Midi2

theorem each_panic {α β : Type} {f : α → Res β} {as : List α}
    (h : ∀ a ∈ as, (∃ b, f a = .ok b) ∨ f a = .panic) (hp : ∃ a ∈ as, f a = .panic) :
    each f as = .panic := by
  induction as with
  | nil => obtain ⟨_, h, _⟩ := hp; cases h
  | cons a as ih =>
    simp only [each]
    rcases h a List.mem_cons_self with ⟨b, hb⟩ | hb
    · obtain ⟨x, hx, e⟩ := hp
      rcases List.mem_cons.mp hx with rfl | hx
      · rw [e] at hb; cases hb
      · rw [hb, Res.ok_bind, ih (fun a ha => h a (List.mem_cons_of_mem _ ha)) ⟨x, hx, e⟩]
        rfl
    · rw [hb]; rfl

/-- A choice of results. -/
theorem each_exists {α β : Type} {f : α → Res β} {P : α → β → Prop} {as : List α}
    (h : ∀ a ∈ as, ∃ b, f a = .ok b ∧ P a b) : ∃ bs, each f as = .ok bs ∧ Pairs P as bs := by
  induction as with
  | nil => exact ⟨[], rfl, .nil⟩
  | cons a as ih =>
    obtain ⟨b, h1, h2⟩ := h a List.mem_cons_self
    obtain ⟨bs, i1, i2⟩ := ih fun a ha => h a (List.mem_cons_of_mem _ ha)
    refine ⟨b :: bs, ?_, .cons h2 i2⟩
    simp only [each]
    rw [h1, Res.ok_bind, i1]
    rfl

theorem each_pairs {α β : Type} {f : α → Res β} {as : List α} {bs : List β}
    (h : Pairs (fun a b => f a = .ok b) as bs) : each f as = .ok bs := by
  induction h with
  | nil => rfl
  | cons h1 _ ih =>
    simp only [each]
    rw [h1, Res.ok_bind, ih]
    rfl

theorem Pairs.mono {α β : Type} {R S : α → β → Prop} {as : List α} {bs : List β}
    (h : Pairs R as bs) (hRS : ∀ a b, a ∈ as → R a b → S a b) : Pairs S as bs := by
  induction h with
  | nil => exact .nil
  | cons h1 _ ih =>
    exact .cons (hRS _ _ List.mem_cons_self h1) (ih fun a b ha => hRS a b (List.mem_cons_of_mem _ ha))

theorem Pairs.right {α β : Type} {R : α → β → Prop} {as : List α} {bs : List β}
    (h : Pairs R as bs) : ∀ b ∈ bs, ∃ a ∈ as, R a b := by
  induction h with
  | nil => intro b hb; cases hb
  | cons h1 _ ih =>
    intro b hb
    rcases List.mem_cons.mp hb with rfl | hb
    · exact ⟨_, List.mem_cons_self, h1⟩
    · obtain ⟨a, ha, h⟩ := ih b hb
      exact ⟨a, List.mem_cons_of_mem _ ha, h⟩

theorem hybrid_listed {d : MsgDesc} (hd : d ∈ Msg.hybridAll) :
    (∃ lo hi, (BytesKind.fixed d, lo, hi) ∈ bytesTable) ∧
    (∃ h, (UmpKind.fixed d, h) ∈ umpTable) ∧ UmpKind.fixed d ∉ misfiled ∧
    UmpKind.fixed d ≠ .fixed Msg.streamFunctionBlockDiscovery ∧ d.umpSize = 1 ∧
    ("group", groupFld) ∈ d.props ∧ d.minSize .bytes ≤ 3 := by
  have : ∀ d ∈ Msg.hybridAll, (∃ e ∈ bytesTable, e.1 = .fixed d) ∧
    (∃ e ∈ umpTable, e.1 = .fixed d) ∧ UmpKind.fixed d ∉ misfiled ∧
    UmpKind.fixed d ≠ .fixed Msg.streamFunctionBlockDiscovery ∧ d.umpSize = 1 ∧
    ("group", groupFld) ∈ d.props ∧ d.minSize .bytes ≤ 3 := by decide +kernel
  obtain ⟨⟨⟨k, lo, hi⟩, h1, h2⟩, ⟨⟨k', h⟩, h3, h4⟩, h5⟩ := this d hd
  cases h2
  cases h4
  exact ⟨⟨lo, hi, h1⟩, ⟨h, h3⟩, h5⟩

theorem bytes_fixed {d : MsgDesc} {m : List (BitVec 8)} (M : IsBytesMessage (.fixed d) m) :
    d ∈ Msg.hybridAll ∧ d.tryFrom .bytes m = .ok m ∧ m.length = d.minSize .bytes := by
  obtain ⟨lo, hi, he⟩ := M.known
  refine ⟨(bytes_table_demands _ he d rfl).1, M.accepted, ?_⟩
  have hl := ((tryFrom_iff d .bytes m).mp M.accepted).1
  have e : d.data .bytes m = .ok m := M.whole
  rw [data_ok hl] at e
  have := congrArg List.length (Res.ok.inj e)
  rw [List.length_take] at this
  omega

theorem bytes_sysex {m : List (BitVec 8)} (M : IsBytesMessage .sysex7 m) :
    ∃ p, m = 0xF0 :: p ++ [0xF7] ∧ Sxb.tryFrom m = .ok m ∧ m.dropLast.drop 1 = p ∧
      (0xF7 : BitVec 8) ∉ p ∧ Sxb.data m = .ok m := by
  obtain ⟨p, rest, rfl, hp, e, _⟩ := C06_sysex7_bytes_reads_partial m M.accepted
  have e' : Sxb.data (0xF0 :: p ++ 0xF7 :: rest) = .ok (0xF0 :: p ++ 0xF7 :: rest) := M.whole
  rw [e] at e'
  obtain rfl : rest = [] := by
    have := Res.ok.inj e'
    simp at this
    exact this
  refine ⟨p, rfl, M.accepted, ?_, hp, M.whole⟩
  rw [show (0xF0 :: p ++ [0xF7] : List (BitVec 8)) = (0xF0 :: p) ++ [0xF7] from rfl,
    List.dropLast_concat]
  rfl

/-- A fixed-size message becomes one word. -/
theorem toUmp_fixed {dbg : Bool} {d : MsgDesc} {m : List (BitVec 8)}
    (M : IsBytesMessage (.fixed d) m) :
    (d = Msg.sysSongPositionPointer → toUmp dbg (.fixed d, m) = .panic) ∧
    (d ≠ Msg.sysSongPositionPointer → ∃ u, toUmp dbg (.fixed d, m) = .ok (.fixed d, u) ∧
      UmpMessage.tryFrom u = .ok (.fixed d, u) ∧ u.length = 1 ∧ d.data .ump u = .ok u ∧
      Same (.fixed d, m) (.fixed d, u) ∧
      toBytes (.fixed d, u) = .ok (some (.fixed d, cleared (.fixed d, m)))) := by
  obtain ⟨hd, ha, hl⟩ := bytes_fixed M
  obtain ⟨-, ⟨h, he⟩, hm, hf, hus, hg, h3⟩ := hybrid_listed hd
  have hX := C13_bytes_to_ump_exactly hd m ha 1 (by omega)
  constructor
  · rintro rfl
    have hs : ShortPointer Msg.sysSongPositionPointer m := ⟨rfl, hl⟩
    show (do let x ← HybridEnum.convertVec .bytes .ump (Msg.sysSongPositionPointer, m); _) = _
    unfold HybridEnum.convertVec
    simp only
    rw [(hX.1 hs).2.2]
    rfl
  · intro hne
    have hname : d.name ≠ "system_common::SongPositionPointer" := fun hn => hne (shortPointer_eq hd hn)
    obtain ⟨u, e1, -, e2, e3, e4, e5, e6⟩ := hX.2 fun hs => hname hs.1
    have e2 := e2 hus.symm
    have hroom : d.room8 = d.minSize .bytes := by
      have : ∀ d ∈ Msg.hybridAll, d.name ≠ "system_common::SongPositionPointer" →
        d.room8 = d.minSize .bytes := by decide +kernel
      exact this d hd hname
    have hgr : FixedEnum.group (d, u) = .ok 0 := by
      unfold FixedEnum.group
      rw [fixedEnum_read hg]
      exact e5
    refine ⟨u, ?_, (C10_ump_dispatch_partial he hm u fun e => absurd e hf).mpr e4, e3, ?_,
      ⟨rfl, ?_, hgr, e6⟩, ?_⟩
    · show (do let x ← HybridEnum.convertVec .bytes .ump (d, m); _) = _
      unfold HybridEnum.convertVec
      simp only
      rw [e2]
      rfl
    · have hmin : d.minSize .ump = 1 := hus
      rw [data_ok (m := .ump) (by omega), hmin, List.take_of_length_le (by omega)]
    · obtain ⟨u', g1, g2⟩ := C13_bytes_to_ump_words hd m ha (fun hs => hname hs.1) 1 (by omega)
      rw [e1] at g1
      cases g1
      exact g2
    · obtain ⟨a', f1, -, f2, f3, -, -⟩ := (C13_ump_to_bytes_partial hd u e4 (d.minSize .bytes)).2
        (by omega)
      obtain ⟨-, g1, g2⟩ := C13_bytes_roundtrip hd m ha (fun hn => absurd hn hname) 1
        (d.minSize .bytes) (by omega) (by omega) u a' e1 f1
      have hc : a' = cleared (.fixed d, m) := by
        show a' = m.mapIdx _
        refine List.ext_getElem? fun i => ?_
        rw [List.getElem?_mapIdx]
        by_cases hi : i < m.length
        · rw [g2 i (by omega) _ (List.getElem?_eq_getElem hi) (by omega),
            List.getElem?_eq_getElem hi]
          rfl
        · rw [List.getElem?_eq_none (by omega), List.getElem?_eq_none (by omega)]
          rfl
      show (if d ∈ Msg.hybridAll then _ else _) = _
      rw [if_pos hd]
      unfold HybridEnum.convertVec
      simp only
      rw [f2 rfl, hc]
      rfl

theorem holds_whole {u : List (BitVec 32)} {g : BitVec 4} {l : List (BitVec 7)} (H : Sx.s7.Holds u g l)
    (hd : Sx.s7.data u = .ok u) : UmpMessage.tryFrom u = .ok (.sysex .s7, u) ∧
      Sxb.fromUmp u = .ok (sysexBytes l) := by
  obtain ⟨x, w1, w2, w3, _⟩ := H.wire
  rw [hd] at w1
  cases w1
  refine ⟨?_, C25_ump_to_bytes u _ _ w3 l H.payload⟩
  have he : (UmpKind.sysex .s7, (⟨3, 8, 0, 0⟩ : Header)) ∈ umpTable := by decide +kernel
  exact (C10_ump_dispatch_partial he (sysex_not_misfiled .s7) u (fun e => nomatch e)).mpr
    (message_accepted w3 w2)

/-- A system exclusive message becomes its packets. -/
theorem toUmp_sysex {dbg : Bool} {m : List (BitVec 8)} (M : IsBytesMessage .sysex7 m) :
    ((∃ x ∈ m.dropLast.drop 1, 0x80 ≤ x.toNat) → toUmp dbg (.sysex7, m) = .panic) ∧
    (¬ (∃ x ∈ m.dropLast.drop 1, 0x80 ≤ x.toNat) →
      ∃ u, toUmp dbg (.sysex7, m) = .ok (.sysex .s7, u) ∧
        UmpMessage.tryFrom u = .ok (.sysex .s7, u) ∧ Sx.s7.data u = .ok u ∧
        Same (.sysex7, m) (.sysex .s7, u) ∧ toBytes (.sysex .s7, u) = .ok (some (.sysex7, m))) := by
  obtain ⟨p, hm, hacc, hp, hn, hdata⟩ := bytes_sysex M
  obtain ⟨q, rest, hq, hqn, h1, h2⟩ := C25_bytes_to_ump_exactly dbg m hacc
  obtain ⟨q', rest', hq', -, hd', -, h3, -⟩ := C06_sysex7_bytes_reads_partial m hacc
  have hpq : q = p := by
    obtain ⟨s, -, e, hs⟩ := accepted_raw hacc
    rw [hm] at hq
    have hq : p ++ [0xF7] = q ++ 0xF7 :: rest := by simpa using hq
    rcases List.append_eq_append_iff.mp hq with ⟨t, rfl, ht⟩ | ⟨t, rfl, ht⟩
    · cases t with
      | nil => simp
      | cons y t =>
        simp only [List.cons_append, List.cons.injEq] at ht
        exact absurd (by rw [← ht.1]; simp) hqn
    · cases t with
      | nil => simp
      | cons y t =>
        simp only [List.cons_append, List.cons.injEq] at ht
        exact absurd (by rw [← ht.1]; simp) hn
  subst hpq
  rw [hp]
  constructor
  · rintro ⟨x, hx, h⟩
    show (do let u ← Sxb.fromBytes dbg m; _) = _
    rw [(h2 ⟨x, hx, h⟩).1]
    rfl
  · intro hno
    have hs : ∀ x ∈ q, x.toNat < 128 := fun x hx => Nat.lt_of_not_le fun h => hno ⟨x, hx, h⟩
    obtain ⟨u, l, e1, e2, e3, e4⟩ := h1 hs
    obtain ⟨f1, f2⟩ := holds_whole e2 e4
    have hml : Sxb.payloadList m = .ok l ∧ sysexBytes l = m := by
      obtain ⟨l', rfl⟩ := septets_map hs
      have hraw : m = sysexBytes l' := by rw [hm]; rfl
      have hl := (holdsBytes_nil l').payload
      rw [← hraw] at hl
      have : l = l' := by
        have inj : ∀ {a b : List (BitVec 7)}, a.map BitVec.toNat = b.map BitVec.toNat → a = b := by
          intro a b h
          exact List.map_inj_right (fun x y h => BitVec.eq_of_toNat_eq h) |>.mp h
        refine inj ?_
        rw [e3, List.map_map]
        refine List.map_congr_left fun v _ => ?_
        show (v.setWidth 8).toNat = v.toNat
        rw [BitVec.toNat_setWidth]
        exact Nat.mod_eq_of_lt (by have := v.isLt; omega)
      subst this
      exact ⟨hl, hraw.symm⟩
    refine ⟨u, ?_, f1, e4, ⟨l, hml.1, e2⟩, ?_⟩
    · show (do let u ← Sxb.fromBytes dbg m; _) = _
      rw [e1]
      rfl
    · show (do let u ← Sxb.fromUmp u; _) = _
      rw [f2, hml.2]
      rfl

/-- A message of fixed size back to bytes. -/
theorem toBytes_fixed {d : MsgDesc} (hd : d ∈ Msg.hybridAll) {u : List (BitVec 32)}
    (ha : d.tryFrom .ump u = .ok u) (hw : d.data .ump u = .ok u) :
    (d = Msg.sysSongPositionPointer → toBytes (.fixed d, u) = .panic) ∧
    (d ≠ Msg.sysSongPositionPointer → ∃ m, toBytes (.fixed d, u) = .ok (some (.fixed d, m)) ∧
      BytesOf (.fixed d, u) (.fixed d, m) ∧ IsBytesMessage (.fixed d) m ∧
      ∀ dbg, toUmp dbg (.fixed d, m) = .ok (.fixed d, u.map (· &&& Convert.umpMask d.name))) := by
  obtain ⟨⟨lo, hi, hb⟩, -, -, -, hus, -, h3⟩ := hybrid_listed hd
  have hX := C13_ump_to_bytes_exactly hd u ha (d.minSize .bytes)
  constructor
  · rintro rfl
    simp only [toBytes, if_pos hd, HybridEnum.convertVec]
    rw [hX.2.1 rfl]
    rfl
  · intro hne
    have hname : d.name ≠ "system_common::SongPositionPointer" := fun hn => hne (shortPointer_eq hd hn)
    have hroom : d.room8 = d.minSize .bytes := by
      have : ∀ d ∈ Msg.hybridAll, d.name ≠ "system_common::SongPositionPointer" →
        d.room8 = d.minSize .bytes := by decide +kernel
      exact this d hd hname
    have hns : ¬ ShortPointer d (List.replicate (d.minSize .bytes) 0) := fun hs => hname hs.1
    obtain ⟨m, e1, -, e2, e3, e4, -⟩ := hX.2.2.2 (Nat.le_refl _) hns
    obtain ⟨m', f1, f2, f3⟩ := C13_ump_to_bytes_words hd u ha _ (Nat.le_refl _) hns
    rw [e1] at f1
    cases f1
    have hdat : d.data .bytes m = .ok m := by
      rw [data_ok (m := .bytes) (by omega), List.take_of_length_le (by omega)]
    have M : IsBytesMessage (.fixed d) m := ⟨⟨lo, hi, hb⟩, e4, hdat⟩
    refine ⟨m, ?_, ⟨rfl, f2, fun i hi => f3 i (f2 ▸ hi)⟩, M, fun dbg => ?_⟩
    · show (if d ∈ Msg.hybridAll then _ else _) = _
      rw [if_pos hd]
      unfold HybridEnum.convertVec
      simp only
      rw [e2 rfl]
      rfl
    · have hl : u.length = 1 := by
        have hl := ((tryFrom_iff d .ump u).mp ha).1
        rw [data_ok hl] at hw
        have := congrArg List.length (Res.ok.inj hw)
        rw [List.length_take] at this
        have h1 : d.minSize .ump = 1 := hus
        omega
      match u, hl with
      | [w], _ =>
        obtain ⟨v, g1, -, g2, g3, -⟩ := (C13_bytes_to_ump_exactly hd m e4 1 (by omega)).2
          fun hs => hname hs.1
        obtain ⟨-, r2, r3⟩ := C13_ump_roundtrip hd w [] ha (d.minSize .bytes) 1 (by omega) (by omega)
          m v e1 g1
        have hv : v = [w &&& Convert.umpMask d.name] := by
          match v, r2 with
          | [x], _ => cases r3; rfl
        show (do let x ← HybridEnum.convertVec .bytes .ump (d, m); _) = _
        unfold HybridEnum.convertVec
        simp only
        rw [g2 hus.symm, hv]
        rfl

/-- System exclusive back to bytes. -/
theorem toBytes_sysex {u : List (BitVec 32)} (ha : Sx.s7.tryFrom u = .ok u)
    (hu : sysex7Layout.Untruncated u) :
    ∃ m, toBytes (.sysex .s7, u) = .ok (some (.sysex7, m)) ∧
      BytesOf (.sysex .s7, u) (.sysex7, m) ∧ IsBytesMessage .sysex7 m ∧
      ∀ dbg, ∃ u', toUmp dbg (.sysex7, m) = .ok u' ∧ Again (.sysex .s7, u) u' := by
  obtain ⟨g, sizes, M, -, l, hl, -⟩ := C23_payload_of_accepted .s7 u ha hu
  have hf := C25_ump_to_bytes u g sizes M l hl
  have hacc := sysexBytes_accepted l []
  rw [List.append_nil] at hacc
  have hbl := (holdsBytes_nil l).payload
  refine ⟨sysexBytes l, ?_, ⟨l, hl, rfl⟩, ⟨⟨0xF0, 0xF1, by decide +kernel⟩, hacc,
    (holdsBytes_nil l).data⟩, fun dbg => ?_⟩
  · show (do let u ← Sxb.fromUmp u; _) = _
    rw [hf]
    rfl
  · obtain ⟨v, f1, f2, f3⟩ := C25_bytes_to_ump dbg (sysexBytes l) hacc l hbl
    refine ⟨(.sysex .s7, v), ?_, rfl, l, hl, f2, f3⟩
    show (do let u ← Sxb.fromBytes dbg _; _) = _
    rw [f1]
    rfl

end Midi2.Gateway
