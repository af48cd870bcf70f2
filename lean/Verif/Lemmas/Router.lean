import Verif.Spec.Router
import Verif.Lemmas.Reassembly
import Verif.Props.Enums

/-! # Lemmas: a router that moves packets to other groups -/

namespace Midi2.Rx

/-- A word with other bits nowhere but in the group. -/
theorem word_setNibble {w w' : BitVec 32} {g : BitVec 4} (hg : field w' 4 4 = g.toNat)
    (h : ∀ p, ¬ (4 ≤ p ∧ p < 8) → w'.getMsbD p = w.getMsbD p) : w' = U32.setNibble w 1 g := by
  apply BitVec.eq_of_getLsbD_eq
  intro i hi
  rw [U32.setNibble_eq, getLsbD_ins]
  simp only [hi, decide_true, Bool.true_and]
  split
  · rename_i hb
    have hb : 24 ≤ i ∧ i < 28 := by omega
    have e : w'.toNat / 2 ^ 24 % 2 ^ 4 = g.toNat := hg
    show w'.toNat.testBit i = g.toNat.testBit (i - 24)
    rw [← e, Nat.testBit_mod_two_pow, Nat.testBit_div_two_pow, show i - 24 + 24 = i by omega]
    simp only [show i - 24 < 4 by omega, decide_true, Bool.true_and]
  · rename_i hb
    have := h (31 - i) (by omega)
    unfold BitVec.getMsbD at this
    rw [show 32 - 1 - (31 - i) = i by omega] at this
    simpa [show 31 - i < 32 by omega] using this

theorem laneAt_setNibble (w : BitVec 32) (t t' : List (BitVec 32)) (g : BitVec 4)
    (hn : ¬ (field w 0 4 = 0 ∨ field w 0 4 = 15)) :
    laneAt (U32.setNibble w 1 g :: t') = ((laneAt (w :: t)).1, g.toNat, (laneAt (w :: t)).2.2) := by
  obtain ⟨f1, f2, -, -, f5⟩ := Sx.field_setGroup w g
  unfold laneAt
  simp only [List.headD_cons, f1, f2, f5, if_neg hn]
  by_cases h5 : field w 0 4 = 5 <;> simp [h5]

theorem chunks_heads {n : Nat} (hn : 0 < n) (f : BitVec 32 → BitVec 32) :
    ∀ ps ps' : List (List (BitVec 32)), (∀ c ∈ ps, c.length = n) → (∀ c ∈ ps', c.length = n) →
    (∀ i, ps'.flatten[i]? = if i % n = 0 then (ps.flatten[i]?).map f else ps.flatten[i]?) →
    ps' = ps.map (modifyHead0 f)
  | [], [], _, _, _ => rfl
  | [], c :: ps', _, h', H => by
    have := H 0
    have hc := h' c List.mem_cons_self
    cases c with
    | nil => exact absurd hc (by simp; omega)
    | cons w c => simp at this
  | c :: ps, [], h, _, H => by
    have := H 0
    have hc := h c List.mem_cons_self
    cases c with
    | nil => exact absurd hc (by simp; omega)
    | cons w c => simp at this
  | c :: ps, c' :: ps', h, h', H => by
    have hc := h c List.mem_cons_self
    have hc' := h' c' List.mem_cons_self
    have ih := chunks_heads hn f ps ps' (fun x hx => h x (List.mem_cons_of_mem _ hx))
      (fun x hx => h' x (List.mem_cons_of_mem _ hx)) fun i => by
        have := H (n + i)
        rw [List.flatten_cons, List.flatten_cons, List.getElem?_append_right (by omega),
          List.getElem?_append_right (by omega), hc, hc', show n + i - n = i by omega,
          Nat.add_mod_left] at this
        exact this
    rw [List.map_cons, ih]
    congr 1
    apply List.ext_getElem?
    intro i
    rw [Sx.modifyHead0_getElem?]
    by_cases hi : i < n
    · have := H i
      rw [List.flatten_cons, List.flatten_cons, List.getElem?_append_left (by omega),
        List.getElem?_append_left (by omega), Nat.mod_eq_of_lt hi] at this
      exact this
    · rw [List.getElem?_eq_none (by omega), List.getElem?_eq_none (by omega)]
      simp

theorem fixed_group : ∀ e ∈ umpTable, e.2.type ≠ 0 → e.2.type ≠ 15 → ∀ d, e.1 = .fixed d →
    ("group", groupFld) ∈ d.props ∧ d ∈ Msg.all := by
  have : umpTable.all (fun e => decide (e.2.type = 0) || decide (e.2.type = 15) ||
    (match e.1 with
      | .fixed d => decide (("group", groupFld) ∈ d.props) && decide (d ∈ Msg.all)
      | _ => true)) = true := by decide +kernel
  intro e he h1 h2 d hd
  have := List.all_eq_true.mp this e he
  simpa [h1, h2, hd] using this

/-- `set_group` of the whole message: the group of every packet, and nothing else. -/
theorem withGroup_sent {l : Lane} {m : UmpKind × Buf .ump} (h : Sent l m) (hG : Grouped l)
    (g : BitVec 4) :
    ∃ b', withGroup g m = .ok (m.1, b') ∧ Sent (l.1, g.toNat, l.2.2) (m.1, b') ∧
      ∃ ps, send m = .ok ps ∧ send (m.1, b') = .ok (ps.map (modifyHead0 (U32.setNibble · 1 g))) := by
  obtain ⟨k, b⟩ := m
  have hok : UmpMessage.tryFrom b = .ok (k, b) := h.parsed
  have hd : UmpMessage.data (k, b) = .ok b := h.whole
  have hl : laneAt b = l := h.onLane
  have complete : ∀ {b : Buf .ump}, UmpMessage.tryFrom b = .ok (k, b) → UmpMessage.data (k, b) = .ok b →
      k.Complete b := fun {b} hok hd => Classical.byContradiction fun hc => by
    rw [((C06_ump_message_exactly b b k hok).2 hc).1] at hd
    cases hd
  have hcomp := complete hok hd
  obtain ⟨-, hk, hdr, he, ho⟩ := C10_ump_variant b b k hok
  have hm : k ∉ misfiled := fun hm => misfiled_never hm hok
  have hb : b ≠ [] := by
    rintro rfl
    exact absurd ho.1 (by unfold fieldAt; simp)
  obtain ⟨w, tl, rfl⟩ : ∃ w tl, b = w :: tl := by
    cases b with
    | nil => exact absurd rfl hb
    | cons w tl => exact ⟨w, tl, rfl⟩
  have hwt : field w 0 4 = hdr.type := Option.some.inj ho.1
  have hlt : l.1 = hdr.type := by rw [← hl]; exact hwt
  have ht0 : hdr.type ≠ 0 := hlt ▸ hG.1
  have ht15 : hdr.type ≠ 15 := hlt ▸ hG.2.1
  have hf : k ≠ .fixed Msg.streamFunctionBlockDiscovery := by
    have : ∀ e ∈ umpTable, e.1 = .fixed Msg.streamFunctionBlockDiscovery → e.2.type = 15 := by
      decide +kernel
    exact fun e => ht15 (this _ he e)
  have hw : 0 < k.packetWords := by
    cases k with
    | fixed d => exact (by decide +kernel : ∀ d ∈ Msg.all, 0 < d.umpSize) d (table_demands _ he d rfl).1
    | sysex s => cases s <;> decide
    | _ => exact (by decide : 0 < 4)
  -- what is left to show of the new words
  have core : ∀ b' : Buf .ump, withGroup g (k, w :: tl) = .ok (k, b') → k.tryFrom b' = .ok b' →
      UmpMessage.data (k, b') = .ok b' →
      (∀ i, b'[i]? = if i % k.packetWords = 0 then ((w :: tl)[i]?).map (U32.setNibble · 1 g)
        else (w :: tl)[i]?) →
      ∃ b', withGroup g (k, w :: tl) = .ok (k, b') ∧ Sent (l.1, g.toNat, l.2.2) (k, b') ∧
      ∃ ps, send (k, w :: tl) = .ok ps ∧
        send (k, b') = .ok (ps.map (modifyHead0 (U32.setNibble · 1 g))) := by
    intro b' h1 h2 h3 h4
    have hok' : UmpMessage.tryFrom b' = .ok (k, b') :=
      (C10_ump_dispatch_exactly he b' h2).1 ⟨hm, fun e => absurd e hf⟩
    obtain ⟨d, ps, hdr1, kind, a1, a2, -, a4, -, -, a7, a8⟩ := accepted_chunks _ _ k hok hcomp hf
    obtain ⟨d', ps', hdr2, kind', c1, c2, -, c4, -, -, c7, c8⟩ :=
      accepted_chunks _ _ k hok' (complete hok' h3) hf
    cases Res.ok.inj (hd.symm.trans a1)
    cases Res.ok.inj (h3.symm.trans c1)
    have hsend : ∀ {x : Buf .ump} {qs : List (Buf .ump)} {kd : PacketKind},
        UmpMessage.packets (k, x) = .ok qs → (∀ c ∈ qs, Packet.tryFrom c = .ok (kd, c)) →
        send (k, x) = .ok qs := fun e1 e2 => by
      unfold send
      rw [e1]
      exact pack_ok e2
    refine ⟨b', h1, ⟨hok', h3, ?_⟩, ps, hsend a2 a8, ?_⟩
    · have := h4 0
      rw [Nat.zero_mod, if_pos rfl] at this
      cases b' with
      | nil => simp at this
      | cons w' tl' =>
        have e : w' = U32.setNibble w 1 g := by simpa using this
        show laneAt (w' :: tl') = _
        rw [← hl, e]
        exact laneAt_setNibble w tl tl' g (by rw [hwt]; omega)
    · rw [hsend c2 c8, chunks_heads hw (U32.setNibble · 1 g) ps ps' a7 c7 (by rw [c4, a4]; exact h4)]
  cases k with
  | fixed d =>
    obtain ⟨hp, hda⟩ := fixed_group _ he ht0 ht15 d rfl
    have hk : d.tryFrom .ump (w :: tl) = .ok (w :: tl) := hk
    obtain ⟨b', h1, h2, h3, h4⟩ := set_accepted hda hp rfl (w :: tl) hk g rfl
      (bit := fun i p => i = 0 ∧ 4 ≤ p ∧ p < 8) (mask_bits (.inl ⟨rfl, rfl⟩))
    obtain ⟨g', f1, f2⟩ := group_read b' (by rw [h4.1]; simp)
    rw [h3] at f1
    cases f1
    have hlen : (w :: tl).length = d.umpSize := by
      obtain ⟨p, -, q2, -, q4, -⟩ := C33_fixed_packets hda (w :: tl) ((tryFrom_iff d .ump _).mp hk).1
      rw [show w :: tl = p from Res.ok.inj ((show d.data .ump (w :: tl) = _ from hd).symm.trans q2)]
      exact q4
    refine core b' ?_ h2 ?_ ?_
    · show (FixedEnum.write .ump "group" groupFld g (d, w :: tl) >>= fun y => pure (asUmp y)) = _
      rw [fixedEnum_write hp _ b' g h1]; rfl
    · obtain ⟨p, -, q2, q3, -, -⟩ := C33_fixed_packets hda b' ((tryFrom_iff d .ump _).mp h2).1
      show d.data .ump b' = _
      rw [q2, q3, List.take_of_length_le (by rw [h4.1, hlen]; exact Nat.le_refl _)]
    · intro i
      show b'[i]? = if i % d.umpSize = 0 then _ else _
      have hb' := h4.1
      by_cases hi : i < (w :: tl).length
      · rw [Nat.mod_eq_of_lt (by rw [← hlen]; exact hi)]
        have e1 := List.getElem?_eq_getElem (l := b') (i := i) (by omega)
        have e2 := List.getElem?_eq_getElem hi
        rw [e1, e2]
        by_cases h0 : i = 0
        · subst h0
          rw [if_pos rfl, Option.map_some]
          congr 1
          refine word_setNibble ?_ fun p hp => ?_
          · unfold fieldAt at f2
            rw [e1] at f2
            exact Option.some.inj f2
          · have := h4.2 0 p (fun c => hp c.2)
            rw [e1, e2] at this
            exact Option.some.inj this
        · rw [if_neg h0]
          congr 1
          apply BitVec.eq_of_getMsbD_eq
          intro p hp
          have := h4.2 i p (fun c => h0 c.1)
          rw [e1, e2] at this
          exact Option.some.inj this
      · rw [List.getElem?_eq_none (l := b') (by omega), List.getElem?_eq_none (by omega)]
        simp
  | sysex s =>
    have A := (Sx.tryFrom_iff s (w :: tl)).mp hk
    obtain ⟨g0, sizes, M, hlen, _, _, _, _, m3⟩ := C23_payload_of_accepted s (w :: tl) hk hcomp
    have hbl : (w :: tl).length = s.layout.words * (s.layout.run (w :: tl)).length := by
      have := congrArg List.length (Res.ok.inj ((show s.data (w :: tl) = .ok (w :: tl) from hd).symm.trans m3))
      rw [List.length_take] at this
      have := M.whole
      rw [← hlen]
      omega
    have hk' : s.tryFrom (s.setGroup (w :: tl) g) = .ok (s.setGroup (w :: tl) g) :=
      (Sx.tryFrom_iff _ _).mpr (Sx.accepts_setGroup s A g)
    have hrun := Sx.length_run_setGroup s (w :: tl) g
    have hbl' := Sx.setGroup_length s (w :: tl) g
    refine core _ rfl hk' ?_ fun i => ?_
    · obtain ⟨g1, sizes1, M1, hlen1, _, _, _, _, m31⟩ := C23_payload_of_accepted s _ hk' (by
        show s.layout.words * (s.layout.run (s.setGroup (w :: tl) g)).length ≤ _
        rw [hrun, hbl', hbl]; exact Nat.le_refl _)
      show s.data _ = _
      rw [m31, List.take_of_length_le (by rw [hlen1, hrun, hbl', hbl]; exact Nat.le_refl _)]
    · rw [Sx.setGroup_word]
      show _ = if i % s.layout.words = 0 then _ else _
      rw [words_eq] at hbl ⊢
      by_cases hi : i < (w :: tl).length
      · by_cases h0 : i % s.stride = 0
        · have hj : i / s.stride < (s.layout.run (w :: tl)).length :=
            Nat.div_lt_of_lt_mul (by omega)
          have hj' : i / s.stride < s.lead (w :: tl) :=
            Sx.run_lt_lead s _ hj (by rw [hbl]; exact Nat.mul_le_mul_left _ hj)
          rw [if_pos h0, if_pos ⟨h0, hj'⟩]
        · rw [if_neg h0, if_neg fun c => h0 c.1]
      · rw [List.getElem?_eq_none (l := w :: tl) (by omega)]
        simp
  | flexText t =>
    have A := (FlexText.tryFrom_iff t (w :: tl)).mp hk
    obtain ⟨d', ps', q1, q2, -⟩ := C06_flex_text_data_partial t (w :: tl) hk hcomp
    have hbl : (w :: tl).length = 4 * (FlexText.run (w :: tl)).length := by
      have e : w :: tl = d' := Res.ok.inj ((show FlexText.data (w :: tl) = .ok (w :: tl) from hd).symm.trans q1)
      have := congrArg List.length (e.trans q2)
      rw [List.length_take] at this
      have : 4 * (FlexText.run (w :: tl)).length ≤ (w :: tl).length := hcomp
      omega
    have hk' : t.tryFrom (FlexText.setGroup (w :: tl) g) = .ok (FlexText.setGroup (w :: tl) g) :=
      (FlexText.tryFrom_iff _ _).mpr (C27_flex_text_set_group t _ A g).2.2.2.2.2
    have hrun := length_run_setGroup (w :: tl) g
    have hbl' := FlexText.setGroup_length (w :: tl) g
    refine core _ rfl hk' ?_ fun i => ?_
    · obtain ⟨d1, ps1, p1, p2, -⟩ := C06_flex_text_data_partial t _ hk' (by rw [hrun, hbl', hbl]; exact Nat.le_refl _)
      show FlexText.data _ = _
      rw [p1, p2, List.take_of_length_le (by rw [hrun, hbl', hbl]; exact Nat.le_refl _)]
    · rw [FlexText.setGroup_word]
      show _ = if i % 4 = 0 then _ else _
      by_cases hi : i < (w :: tl).length
      · by_cases h0 : i % 4 = 0
        · have hj : i / 4 < FlexText.lead (w :: tl) := run_lt_lead (by omega) (by omega)
          rw [if_pos h0, if_pos ⟨h0, hj⟩]
        · rw [if_neg h0, if_neg fun c => h0 c.1]
      · rw [List.getElem?_eq_none (l := w :: tl) (by omega)]
        simp
  | streamText t =>
    exact absurd (by rw [show hdr = _ from (table_other _ he).2]) ht15

/-! ### The router -/

/-- A packet with its new group. -/
def moved (f : BitVec 4 → BitVec 4) (p : List (BitVec 32)) : List (BitVec 32) :=
  if Grouped (laneAt p) then
    modifyHead0 (U32.setNibble · 1 (f (BitVec.ofNat 4 (laneAt p).2.1))) p
  else p

theorem laneAt_moved (f : BitVec 4 → BitVec 4) (w : BitVec 32) (t : List (BitVec 32)) :
    laneAt (moved f (w :: t)) = moveLane f (laneAt (w :: t)) := by
  unfold moved moveLane
  split
  · rename_i h
    exact laneAt_setNibble w t t _ (fun c => by
      have h1 : field w 0 4 ≠ 0 := h.1
      have h2 : field w 0 4 ≠ 15 := h.2.1
      omega)
  · rfl

theorem moveLane_inj {f : BitVec 4 → BitVec 4} (hf : ∀ a b, f a = f b → a = b) {l l' : Lane}
    (h : moveLane f l = moveLane f l') : l = l' := by
  obtain ⟨t, g, i⟩ := l
  obtain ⟨t', g', i'⟩ := l'
  unfold moveLane at h
  have small : ∀ a : BitVec 4, a.toNat < 16 := fun a => a.isLt
  split at h <;> split at h
  · rename_i h1 h2
    have h1 : t ≠ 0 ∧ t ≠ 15 ∧ g < 16 := h1
    have h2 : t' ≠ 0 ∧ t' ≠ 15 ∧ g' < 16 := h2
    simp only [Prod.mk.injEq] at h
    obtain ⟨rfl, e, rfl⟩ := h
    have := congrArg BitVec.toNat (hf _ _ (BitVec.eq_of_toNat_eq e))
    rw [BitVec.toNat_ofNat, BitVec.toNat_ofNat, Nat.mod_eq_of_lt h1.2.2, Nat.mod_eq_of_lt h2.2.2] at this
    rw [this]
  · rename_i h1 h2
    have h1 : t ≠ 0 ∧ t ≠ 15 ∧ g < 16 := h1
    simp only [Prod.mk.injEq] at h
    obtain ⟨rfl, e, rfl⟩ := h
    exact absurd ⟨h1.1, h1.2.1, e ▸ small _⟩ h2
  · rename_i h1 h2
    have h2 : t' ≠ 0 ∧ t' ≠ 15 ∧ g' < 16 := h2
    simp only [Prod.mk.injEq] at h
    obtain ⟨rfl, e, rfl⟩ := h
    exact absurd ⟨h2.1, h2.2.1, e ▸ small _⟩ h1
  · exact h

theorem route_packet (f : BitVec 4 → BitVec 4) {x p : Buf .ump} {k : PacketKind}
    (h : Packet.tryFrom x = .ok (k, p)) :
    route f x = .ok [moved f p] ∧ laneAt (moved f p) = moveLane f (laneAt x) := by
  obtain ⟨hA, -, w, tb, tp, rfl, rfl⟩ := accepted_packet (packet_of h)
  have ht : field w 0 4 = k.code := Option.some.inj hA.type
  have hg : (U32.nibble w 1).toNat = field w 4 4 := nibble_field w (i := 1) (by decide)
  have hlt : field w 4 4 < 16 := hg ▸ (U32.nibble w 1).isLt
  have hgr : k ≠ .utility → k ≠ .umpStream → Grouped (laneAt (w :: tp)) ∧
      BitVec.ofNat 4 (laneAt (w :: tp)).2.1 = U32.nibble w 1 := fun h1 h2 => by
    have hn : ¬ (field w 0 4 = 0 ∨ field w 0 4 = 15) := by
      rw [ht]
      cases k <;> first | exact absurd rfl h1 | exact absurd rfl h2 | decide
    have e : (laneAt (w :: tp)).2.1 = field w 4 4 := by
      show (if field w 0 4 = 0 ∨ field w 0 4 = 15 then 0 else field w 4 4) = field w 4 4
      exact if_neg hn
    refine ⟨⟨fun c => hn (.inl c), fun c => hn (.inr c), by rw [e]; exact hlt⟩, ?_⟩
    rw [e, ← hg]
    exact BitVec.eq_of_toNat_eq (by rw [BitVec.toNat_ofNat, Nat.mod_eq_of_lt (U32.nibble w 1).isLt])
  refine ⟨?_, laneAt_moved f w tp⟩
  have hkept : (k = .utility ∨ k = .umpStream) → moved f (w :: tp) = w :: tp := fun c => by
    unfold moved
    refine if_neg fun hG => ?_
    have h1 : field w 0 4 ≠ 0 := hG.1
    have h2 : field w 0 4 ≠ 15 := hG.2.1
    rw [ht] at h1 h2
    rcases c with rfl | rfl
    · exact h1 rfl
    · exact h2 rfl
  unfold route
  rw [h]
  cases k
  case utility => rw [hkept (.inl rfl)]
  case umpStream => rw [hkept (.inr rfl)]
  all_goals
    obtain ⟨e1, e2⟩ := hgr (by simp) (by simp)
    unfold moved
    rw [if_pos e1, e2]
    rfl

theorem route_refused (f : BitVec 4 → BitVec 4) {x : Buf .ump} {e : Error}
    (h : Packet.tryFrom x = .err e) : route f x = .ok [] := by
  unfold route
  rw [h]

theorem routeAll_cons {f : BitVec 4 → BitVec 4} {x : Buf .ump} {s ys zs : List (Buf .ump)}
    (h1 : route f x = .ok ys) (h2 : routeAll f s = .ok zs) : routeAll f (x :: s) = .ok (ys ++ zs) := by
  unfold routeAll
  rw [h1]
  show (routeAll f s >>= _) = _
  rw [h2]
  rfl

theorem routeAll_ok (f : BitVec 4 → BitVec 4) : ∀ s : List (Buf .ump), ∃ s', routeAll f s = .ok s'
  | [] => ⟨[], rfl⟩
  | x :: s => by
    obtain ⟨s', hs⟩ := routeAll_ok f s
    rcases tryFrom_total x with ⟨⟨k, p⟩, h⟩ | ⟨e, h⟩
    · exact ⟨_, routeAll_cons (route_packet f h).1 hs⟩
    · exact ⟨_, routeAll_cons (route_refused f h) hs⟩

theorem routeAll_filter {f : BitVec 4 → BitVec 4} (hf : ∀ a b, f a = f b → a = b) (l : Lane) :
    ∀ {s s' : List (Buf .ump)}, routeAll f s = .ok s' →
    routeAll f (s.filter fun x => decide (laneAt x = l)) =
      .ok (s'.filter fun x => decide (laneAt x = moveLane f l))
  | [], s', h => by cases h; rfl
  | x :: s, s', h => by
    obtain ⟨zs, hs⟩ := routeAll_ok f s
    have ih := routeAll_filter hf l hs
    rcases tryFrom_total x with ⟨⟨k, p⟩, hx⟩ | ⟨e, hx⟩
    · obtain ⟨h1, h2⟩ := route_packet f hx
      cases Res.ok.inj ((routeAll_cons h1 hs).symm.trans h)
      rw [List.singleton_append]
      by_cases hl : laneAt x = l
      · rw [List.filter_cons_of_pos (by simpa using hl),
          List.filter_cons_of_pos (by rw [h2, hl]; simp)]
        exact routeAll_cons h1 ih
      · rw [List.filter_cons_of_neg (by simpa using hl),
          List.filter_cons_of_neg (by rw [h2]; simpa using fun c => hl (moveLane_inj hf c))]
        exact ih
    · cases Res.ok.inj ((routeAll_cons (route_refused f hx) hs).symm.trans h)
      rw [List.nil_append]
      by_cases hl : laneAt x = l
      · rw [List.filter_cons_of_pos (by simpa using hl)]
        exact routeAll_cons (route_refused f hx) ih
      · rw [List.filter_cons_of_neg (by simpa using hl)]
        exact ih

theorem routeAll_packets (f : BitVec 4 → BitVec 4) : ∀ {a : List (Buf .ump)},
    (∀ x ∈ a, ∃ k, Packet.tryFrom x = .ok (k, x)) → routeAll f a = .ok (a.map (moved f))
  | [], _ => rfl
  | x :: a, h => by
    obtain ⟨k, hx⟩ := h x List.mem_cons_self
    exact routeAll_cons (route_packet f hx).1 (routeAll_packets f fun y hy => h y (List.mem_cons_of_mem _ hy))

theorem moveAll_cons {f : BitVec 4 → BitVec 4} {l : Lane} {m m' : UmpKind × Buf .ump}
    {ms ms' : List (UmpKind × Buf .ump)}
    (h1 : move f l m = .ok m')
    (h2 : moveAll f l ms = .ok ms') : moveAll f l (m :: ms) = .ok (m' :: ms') := by
  unfold moveAll
  rw [h1]
  show (moveAll f l ms >>= _) = _
  rw [h2]
  rfl

/-- One message. -/
theorem move_sent (f : BitVec 4 → BitVec 4) {l : Lane} {m : UmpKind × Buf .ump} (h : Sent l m) :
    ∃ m', move f l m = .ok m' ∧
      m'.1 = m.1 ∧ Sent (moveLane f l) m' ∧ ∃ ps, send m = .ok ps ∧ send m' = .ok (ps.map (moved f)) ∧
      ∀ x ∈ ps, laneAt x = l ∧ ∃ k, Packet.tryFrom x = .ok (k, x) := by
  obtain ⟨kind, xs, P⟩ := parts_of_sent h
  by_cases hG : Grouped l
  · obtain ⟨b', h1, h2, ps, h3, h4⟩ := withGroup_sent h hG (f (BitVec.ofNat 4 l.2.1))
    cases Res.ok.inj (P.send.symm.trans h3)
    refine ⟨(m.1, b'), by unfold move; rw [if_pos hG, h1], rfl, by unfold moveLane; rw [if_pos hG]; exact h2, xs, h3, ?_,
      fun x hx => ⟨P.lane x hx, kind, P.packet x hx⟩⟩
    rw [h4]
    congr 1
    apply List.map_congr_left
    intro x hx
    unfold moved
    rw [P.lane x hx, if_pos hG]
  · refine ⟨m, by unfold move; rw [if_neg hG], rfl, by unfold moveLane; rw [if_neg hG]; exact h, xs, P.send, ?_,
      fun x hx => ⟨P.lane x hx, kind, P.packet x hx⟩⟩
    rw [P.send]
    congr 1
    conv => lhs; rw [← List.map_id xs]
    apply List.map_congr_left
    intro x hx
    unfold moved
    rw [P.lane x hx, if_neg hG]
    rfl

theorem moveAll_sent (f : BitVec 4 → BitVec 4) {l : Lane} : ∀ {S : List (UmpKind × Buf .ump)}
    {all : List (Buf .ump)}, (∀ m ∈ S, Sent l m) → sendAll S = .ok all →
    ∃ S', moveAll f l S = .ok S' ∧ (∀ m ∈ S', Sent (moveLane f l) m) ∧
      sendAll S' = .ok (all.map (moved f)) ∧ ∀ x ∈ all, ∃ k, Packet.tryFrom x = .ok (k, x)
  | [], all, _, h => by
    cases h
    exact ⟨[], rfl, (fun _ h => by cases h), rfl, (fun _ h => by cases h)⟩
  | m :: S, all, hS, h => by
    obtain ⟨m', a1, -, a3, ps, a4, a5, a6⟩ := move_sent f (hS m List.mem_cons_self)
    obtain ⟨qs, hq⟩ := sendAll_ok fun m hm => hS m (List.mem_cons_of_mem _ hm)
    obtain ⟨S', b1, b2, b3, b4⟩ := moveAll_sent f (fun m hm => hS m (List.mem_cons_of_mem _ hm)) hq
    have e : sendAll (m :: S) = .ok (ps ++ qs) := by
      unfold sendAll
      rw [a4]
      show (sendAll S >>= _) = _
      rw [hq]; rfl
    cases Res.ok.inj (e.symm.trans h)
    refine ⟨m' :: S', moveAll_cons a1 b1, ?_, ?_, ?_⟩
    · intro y hy
      rcases List.mem_cons.mp hy with rfl | hy
      · exact a3
      · exact b2 y hy
    · unfold sendAll
      rw [a5]
      show (sendAll S' >>= _) = _
      rw [b3, List.map_append]; rfl
    · intro x hx
      rcases List.mem_append.mp hx with hx | hx
      · exact (a6 x hx).2
      · exact b4 x hx

theorem moveAll_split {f : BitVec 4 → BitVec 4} {l : Lane} : ∀ {S S' t' u' : List (UmpKind × Buf .ump)},
    (∀ m ∈ S, Sent l m) → moveAll f l S = .ok S' → S' = t' ++ u' →
    ∃ t u, S = t ++ u ∧ moveAll f l t = .ok t' ∧ moveAll f l u = .ok u'
  | S, S', [], u', _, h, e => ⟨[], S, rfl, rfl, by rw [h, e]; rfl⟩
  | [], S', a :: t', u', _, h, e => by cases h; cases e
  | m :: S, S', a :: t', u', hS, h, e => by
    obtain ⟨m', a1, -⟩ := move_sent f (hS m List.mem_cons_self)
    obtain ⟨ms', b1⟩ : ∃ ms', moveAll f l S = .ok ms' := by
      obtain ⟨qs, hq⟩ := sendAll_ok fun m hm => hS m (List.mem_cons_of_mem _ hm)
      obtain ⟨S', b1, -⟩ := moveAll_sent f (fun m hm => hS m (List.mem_cons_of_mem _ hm)) hq
      exact ⟨S', b1⟩
    have e' := Res.ok.inj ((moveAll_cons a1 b1).symm.trans (h.trans (congrArg Res.ok e)))
    rw [List.cons_append, List.cons.injEq] at e'
    obtain ⟨t, u, c1, c2, c3⟩ := moveAll_split (fun m hm => hS m (List.mem_cons_of_mem _ hm)) b1 e'.2
    exact ⟨m :: t, u, by rw [c1]; rfl, by rw [← e'.1]; exact moveAll_cons a1 c2, c3⟩

end Midi2.Rx
