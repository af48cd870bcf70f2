import Verif.Spec.Mapper
import Verif.Lemmas.Router
import Verif.Lemmas.Behind

/-! # Lemmas: a program that moves channel voice messages to other channels -/

namespace Midi2.Rx

/-- A word with other bits nowhere but in the channel. -/
theorem word_setNibble3 {w w' : BitVec 32} {g : BitVec 4} (hg : field w' 12 4 = g.toNat)
    (h : ∀ p, ¬ (12 ≤ p ∧ p < 16) → w'.getMsbD p = w.getMsbD p) : w' = U32.setNibble w 3 g := by
  apply BitVec.eq_of_getLsbD_eq
  intro i hi
  rw [U32.setNibble_eq, getLsbD_ins]
  simp only [hi, decide_true, Bool.true_and]
  split
  · rename_i hb
    have hb : 16 ≤ i ∧ i < 20 := by omega
    have e : w'.toNat / 2 ^ 16 % 2 ^ 4 = g.toNat := hg
    show w'.toNat.testBit i = g.toNat.testBit (i - 16)
    rw [← e, Nat.testBit_mod_two_pow, Nat.testBit_div_two_pow, show i - 16 + 16 = i by omega]
    simp only [show i - 16 < 4 by omega, decide_true, Bool.true_and]
  · rename_i hb
    have := h (31 - i) (by omega)
    unfold BitVec.getMsbD at this
    rw [show 32 - 1 - (31 - i) = i by omega] at this
    simpa [show 31 - i < 32 by omega] using this

/-- A channel voice packet with its new channel. -/
def channelled (f : BitVec 4 → BitVec 4 → BitVec 4) : List (BitVec 32) → List (BitVec 32)
  | [] => []
  | w :: t => if field w 0 4 = 2 ∨ field w 0 4 = 4 then
      U32.setNibble w 3 (f (U32.nibble w 1) (U32.nibble w 3)) :: t
    else w :: t

theorem channelled_cons (f : BitVec 4 → BitVec 4 → BitVec 4) (w : BitVec 32) (t : List (BitVec 32)) :
    channelled f (w :: t) = if field w 0 4 = 2 ∨ field w 0 4 = 4 then
      U32.setNibble w 3 (f (U32.nibble w 1) (U32.nibble w 3)) :: t else w :: t := rfl

theorem field_setNibble3 (w : BitVec 32) (c : BitVec 4) :
    field (U32.setNibble w 3 c) 0 4 = field w 0 4 ∧ field (U32.setNibble w 3 c) 4 4 = field w 4 4 ∧
      field (U32.setNibble w 3 c) 16 8 = field w 16 8 := by
  rw [U32.setNibble_eq]
  exact ⟨field_ins_ne _ _ _ (by omega), field_ins_ne _ _ _ (by omega), field_ins_ne _ _ _ (by omega)⟩

theorem laneAt_setNibble3 (w : BitVec 32) (t t' : List (BitVec 32)) (c : BitVec 4) :
    laneAt (U32.setNibble w 3 c :: t') = laneAt (w :: t) := by
  obtain ⟨f1, f2, f3⟩ := field_setNibble3 w c
  unfold laneAt
  simp only [List.headD_cons, f1, f2, f3]
  rfl

theorem laneAt_channelled (f : BitVec 4 → BitVec 4 → BitVec 4) (p : List (BitVec 32)) :
    laneAt (channelled f p) = laneAt p := by
  cases p with
  | nil => rfl
  | cons w t =>
    rw [channelled_cons]
    split
    · exact laneAt_setNibble3 w t t _
    · rfl

theorem mapChannel_packet (f : BitVec 4 → BitVec 4 → BitVec 4) {x p : Buf .ump} {k : PacketKind}
    (h : Packet.tryFrom x = .ok (k, p)) :
    mapChannel f x = .ok [channelled f p] ∧ laneAt (channelled f p) = laneAt x := by
  obtain ⟨hA, -, w, tb, tp, rfl, rfl⟩ := accepted_packet (packet_of h)
  have ht : field w 0 4 = k.code := Option.some.inj hA.type
  refine ⟨?_, laneAt_channelled f _⟩
  unfold mapChannel
  rw [h, channelled_cons]
  cases k
  case channelVoice1 => rw [if_pos (by rw [ht]; decide)]; rfl
  case channelVoice2 => rw [if_pos (by rw [ht]; decide)]; rfl
  all_goals rw [if_neg (by rw [ht]; decide)]

theorem mapChannel_refused (f : BitVec 4 → BitVec 4 → BitVec 4) {x : Buf .ump} {e : Error}
    (h : Packet.tryFrom x = .err e) : mapChannel f x = .ok [] := by
  unfold mapChannel
  rw [h]

theorem mapChannels_cons {f : BitVec 4 → BitVec 4 → BitVec 4} {x : Buf .ump} {s ys zs : List (Buf .ump)}
    (h1 : mapChannel f x = .ok ys) (h2 : mapChannels f s = .ok zs) :
    mapChannels f (x :: s) = .ok (ys ++ zs) := by
  unfold mapChannels
  rw [h1]
  show (mapChannels f s >>= _) = _
  rw [h2]
  rfl

theorem mapChannels_ok (f : BitVec 4 → BitVec 4 → BitVec 4) :
    ∀ s : List (Buf .ump), ∃ s', mapChannels f s = .ok s'
  | [] => ⟨[], rfl⟩
  | x :: s => by
    obtain ⟨s', hs⟩ := mapChannels_ok f s
    rcases tryFrom_total x with ⟨⟨k, p⟩, h⟩ | ⟨e, h⟩
    · exact ⟨_, mapChannels_cons (mapChannel_packet f h).1 hs⟩
    · exact ⟨_, mapChannels_cons (mapChannel_refused f h) hs⟩

theorem mapChannels_filter {f : BitVec 4 → BitVec 4 → BitVec 4} (l : Lane) :
    ∀ {s s' : List (Buf .ump)}, mapChannels f s = .ok s' →
    mapChannels f (s.filter fun x => decide (laneAt x = l)) =
      .ok (s'.filter fun x => decide (laneAt x = l))
  | [], s', h => by cases h; rfl
  | x :: s, s', h => by
    obtain ⟨zs, hs⟩ := mapChannels_ok f s
    have ih := mapChannels_filter l hs
    rcases tryFrom_total x with ⟨⟨k, p⟩, hx⟩ | ⟨e, hx⟩
    · obtain ⟨h1, h2⟩ := mapChannel_packet f hx
      cases Res.ok.inj ((mapChannels_cons h1 hs).symm.trans h)
      rw [List.singleton_append]
      by_cases hl : laneAt x = l
      · rw [List.filter_cons_of_pos (by simpa using hl),
          List.filter_cons_of_pos (by rw [h2, hl]; simp)]
        exact mapChannels_cons h1 ih
      · rw [List.filter_cons_of_neg (by simpa using hl),
          List.filter_cons_of_neg (by rw [h2]; simpa using hl)]
        exact ih
    · cases Res.ok.inj ((mapChannels_cons (mapChannel_refused f hx) hs).symm.trans h)
      rw [List.nil_append]
      by_cases hl : laneAt x = l
      · rw [List.filter_cons_of_pos (by simpa using hl)]
        exact mapChannels_cons (mapChannel_refused f hx) ih
      · rw [List.filter_cons_of_neg (by simpa using hl)]
        exact ih

theorem mapChannels_packets (f : BitVec 4 → BitVec 4 → BitVec 4) : ∀ {a : List (Buf .ump)},
    (∀ x ∈ a, ∃ k, Packet.tryFrom x = .ok (k, x)) → mapChannels f a = .ok (a.map (channelled f))
  | [], _ => rfl
  | x :: a, h => by
    obtain ⟨k, hx⟩ := h x List.mem_cons_self
    exact mapChannels_cons (mapChannel_packet f hx).1
      (mapChannels_packets f fun y hy => h y (List.mem_cons_of_mem _ hy))

theorem rechannels_cons {f : BitVec 4 → BitVec 4 → BitVec 4} {m m' : UmpKind × Buf .ump}
    {ms ms' : List (UmpKind × Buf .ump)} (h1 : rechannel f m = .ok m')
    (h2 : rechannels f ms = .ok ms') : rechannels f (m :: ms) = .ok (m' :: ms') := by
  unfold rechannels
  rw [h1]
  show (rechannels f ms >>= _) = _
  rw [h2]
  rfl

theorem voice_table : ∀ e ∈ umpTable, ∀ d, e.1 = .fixed d →
    (d ∈ Msg.cv1All → e.2.type = 2) ∧ (d ∈ Msg.cv2All → d ∉ Msg.cv1All ∧ e.2.type = 4) ∧
    (d ∉ Msg.cv1All → d ∉ Msg.cv2All → e.2.type ≠ 2 ∧ e.2.type ≠ 4) := by
  have : umpTable.all (fun e => match e.1 with
      | .fixed d => decide ((d ∈ Msg.cv1All → e.2.type = 2) ∧
          (d ∈ Msg.cv2All → d ∉ Msg.cv1All ∧ e.2.type = 4) ∧
          (d ∉ Msg.cv1All → d ∉ Msg.cv2All → e.2.type ≠ 2 ∧ e.2.type ≠ 4))
      | _ => true) = true := by decide +kernel
  rintro ⟨k, h⟩ he d rfl
  exact of_decide_eq_true (List.all_eq_true.mp this _ he)

theorem rechannel_fixed (f : BitVec 4 → BitVec 4 → BitVec 4) (d : MsgDesc) (b : Buf .ump) :
    rechannel f (.fixed d, b) =
      if d ∈ Msg.cv1All then do
        return asUmp (← ChannelVoice1.setChannel .ump
          (f (← FixedEnum.group (d, b)) (← ChannelVoice1.channel .ump (d, b))) (d, b))
      else if d ∈ Msg.cv2All then do
        return asUmp (← ChannelVoice2.setChannel
          (f (← FixedEnum.group (d, b)) (← ChannelVoice2.channel (d, b))) (d, b))
      else .ok (.fixed d, b) := rfl

/-- One message. -/
theorem rechannel_sent (f : BitVec 4 → BitVec 4 → BitVec 4) {l : Lane} {m : UmpKind × Buf .ump}
    (h : Sent l m) :
    ∃ b', rechannel f m = .ok (m.1, b') ∧ Sent l (m.1, b') ∧ ∃ ps, send m = .ok ps ∧
      send (m.1, b') = .ok (ps.map (channelled f)) ∧
      ∀ x ∈ ps, laneAt x = l ∧ ∃ k, Packet.tryFrom x = .ok (k, x) := by
  obtain ⟨kind, xs, P⟩ := parts_of_sent h
  obtain ⟨k, b⟩ := m
  have hok : UmpMessage.tryFrom b = .ok (k, b) := h.parsed
  have hd : UmpMessage.data (k, b) = .ok b := h.whole
  have hl : laneAt b = l := h.onLane
  obtain ⟨-, hk, hdr, he, ho⟩ := C10_ump_variant b b k hok
  have hx : ∀ x ∈ xs, laneAt x = l ∧ ∃ k, Packet.tryFrom x = .ok (k, x) :=
    fun x hx => ⟨P.lane x hx, kind, P.packet x hx⟩
  obtain ⟨w, tl, rfl⟩ : ∃ w tl, b = w :: tl := by
    cases b with
    | nil => exact absurd ho.1 (by unfold fieldAt; simp)
    | cons w tl => exact ⟨w, tl, rfl⟩
  have hwt : field w 0 4 = hdr.type := Option.some.inj ho.1
  have hlt : l.1 = hdr.type := by rw [← hl]; exact hwt
  -- messages that stay as they are
  have keep : hdr.type ≠ 2 → hdr.type ≠ 4 → rechannel f (k, w :: tl) = .ok (k, w :: tl) →
      ∃ b', rechannel f (k, w :: tl) = .ok (k, b') ∧ Sent l (k, b') ∧ ∃ ps, send (k, w :: tl) = .ok ps ∧
      send (k, b') = .ok (ps.map (channelled f)) ∧
      ∀ x ∈ ps, laneAt x = l ∧ ∃ k, Packet.tryFrom x = .ok (k, x) := by
    intro h2 h4 e
    refine ⟨w :: tl, e, h, xs, P.send, ?_, hx⟩
    rw [P.send]
    congr 1
    conv => lhs; rw [← List.map_id xs]
    apply List.map_congr_left
    intro x hxm
    cases x with
    | nil => rfl
    | cons v t =>
      have e : field v 0 4 = l.1 := by rw [← P.lane _ hxm]; rfl
      rw [channelled_cons, if_neg (by rw [e, hlt]; omega)]
      rfl
  have small : ∀ s : Sx, (UmpKind.sysex s, hdr) ∈ umpTable → hdr.type ≠ 2 ∧ hdr.type ≠ 4 := by
    intro s he
    rw [show hdr = _ from table_other _ he]
    cases s <;> decide
  cases k with
  | sysex s => exact keep (small s he).1 (small s he).2 rfl
  | flexText t =>
    have e : hdr.type = 13 := by rw [show hdr = _ from (table_other _ he).2]
    exact keep (by rw [e]; decide) (by rw [e]; decide) rfl
  | streamText t =>
    have e : hdr.type = 15 := by rw [show hdr = _ from (table_other _ he).2]
    exact keep (by rw [e]; decide) (by rw [e]; decide) rfl
  | fixed d =>
    obtain ⟨v1, v2, v3⟩ := voice_table _ he d rfl
    by_cases hv : d ∈ Msg.cv1All ∨ d ∈ Msg.cv2All
    case neg =>
      have hn1 : d ∉ Msg.cv1All := fun c => hv (.inl c)
      have hn2 : d ∉ Msg.cv2All := fun c => hv (.inr c)
      refine keep (v3 hn1 hn2).1 (v3 hn1 hn2).2 ?_
      rw [rechannel_fixed, if_neg hn1, if_neg hn2]
    case pos =>
    have htype : hdr.type = 2 ∨ hdr.type = 4 := hv.imp v1 fun c => (v2 c).2
    have hk : d.tryFrom .ump (w :: tl) = .ok (w :: tl) := hk
    obtain ⟨hp, hda⟩ := fixed_group _ he (by rcases htype with e | e <;> rw [e] <;> decide)
      (by rcases htype with e | e <;> rw [e] <;> decide) d rfl
    have hm : UmpKind.fixed d ∉ misfiled := fun hm => misfiled_never hm hok
    have hf : UmpKind.fixed d ≠ .fixed Msg.streamFunctionBlockDiscovery := by
      have : ∀ e ∈ umpTable, e.1 = .fixed Msg.streamFunctionBlockDiscovery → e.2.type = 15 := by
        decide +kernel
      intro e
      have := this _ he e
      simp only at this
      rcases htype with c | c <;> rw [c] at this <;> exact absurd this (by decide)
    have hgroup : FixedEnum.group (d, w :: tl) = .ok (U32.nibble w 1) := by
      obtain ⟨g, h1, h2⟩ := group_read (w :: tl) (by simp)
      have : U32.nibble w 1 = g := BitVec.eq_of_toNat_eq ((nibble_field w (i := 1) (by decide)).trans
        (Option.some.inj h2))
      unfold FixedEnum.group
      rw [fixedEnum_read hp, this]; exact h1
    -- the new words, in the same way for both enums
    have main : ∀ b', rechannel f (.fixed d, w :: tl) = .ok (.fixed d, b') → d.tryFrom .ump b' = .ok b' →
        fieldAt b' 0 12 4 = some (f (U32.nibble w 1) (U32.nibble w 3)).toNat →
        ChangedOnly (w :: tl) b' (fun i p => i = 0 ∧ 12 ≤ p ∧ p < 16) →
        ∃ b', rechannel f (.fixed d, w :: tl) = .ok (.fixed d, b') ∧ Sent l (.fixed d, b') ∧
          ∃ ps, send (.fixed d, w :: tl) = .ok ps ∧ send (.fixed d, b') = .ok (ps.map (channelled f)) ∧
          ∀ x ∈ ps, laneAt x = l ∧ ∃ k, Packet.tryFrom x = .ok (k, x) := by
      intro b' h1 h2 h3 h4
      have hb' : b' = U32.setNibble w 3 (f (U32.nibble w 1) (U32.nibble w 3)) :: tl := by
        cases b' with
        | nil => exact absurd h4.1 (by simp)
        | cons w' tl' =>
          congr 1
          · refine word_setNibble3 (Option.some.inj h3) fun p hp => ?_
            exact Option.some.inj (h4.2 0 p fun c => hp c.2)
          · apply List.ext_getElem?
            intro i
            by_cases hi : i < tl.length
            · have hl4 : tl'.length = tl.length := by simpa using h4.1
              rw [List.getElem?_eq_getElem hi, List.getElem?_eq_getElem (by omega)]
              congr 1
              apply BitVec.eq_of_getMsbD_eq
              intro p hp
              have := h4.2 (i + 1) p (fun c => by omega)
              rw [List.getElem?_cons_succ, List.getElem?_cons_succ, List.getElem?_eq_getElem hi,
                List.getElem?_eq_getElem (by omega)] at this
              exact Option.some.inj this
            · have hl4 : tl'.length = tl.length := by simpa using h4.1
              rw [List.getElem?_eq_none (by omega), List.getElem?_eq_none (by omega)]
      have hlen : (w :: tl).length = d.umpSize := by
        obtain ⟨p, -, q2, -, q4, -⟩ := C33_fixed_packets hda (w :: tl) ((tryFrom_iff d .ump _).mp hk).1
        rw [show w :: tl = p from Res.ok.inj ((show d.data .ump (w :: tl) = _ from hd).symm.trans q2)]
        exact q4
      have hd' : UmpMessage.data (.fixed d, b') = .ok b' := by
        obtain ⟨p, -, q2, q3, -, -⟩ := C33_fixed_packets hda b' ((tryFrom_iff d .ump _).mp h2).1
        show d.data .ump b' = _
        rw [q2, q3, List.take_of_length_le (by rw [h4.1, hlen]; exact Nat.le_refl _)]
      have S' : Sent l (.fixed d, b') := by
        refine ⟨(C10_ump_dispatch_exactly he b' h2).1 ⟨hm, fun e => absurd e hf⟩, hd', ?_⟩
        show laneAt b' = l
        rw [hb', ← hl]
        exact laneAt_setNibble3 w tl tl _
      obtain ⟨kind', xs', P'⟩ := parts_of_sent S'
      have one : ∀ {b : Buf .ump}, d.tryFrom .ump b = .ok b → UmpMessage.data (.fixed d, b) = .ok b →
          ∀ {ys}, send (.fixed d, b) = .ok ys → (∀ x ∈ ys, ∃ k, Packet.tryFrom x = .ok (k, x)) →
          ys.flatten = b → ys = [b] := by
        intro b e1 e2 ys e3 e4 e5
        obtain ⟨p, q1, q2, -⟩ := C33_fixed_packets hda b ((tryFrom_iff d .ump b).mp e1).1
        cases Res.ok.inj (q2.symm.trans e2)
        unfold send at e3
        rw [show UmpMessage.packets (.fixed d, b) = .ok [b] from q1] at e3
        have e3 : pack [b] = .ok ys := e3
        unfold pack at e3
        obtain ⟨r, r1, r2⟩ := bind_inv e3
        obtain ⟨q, r3, r4⟩ := bind_inv r2
        cases r3
        cases r4
        rw [List.flatten_cons, List.flatten_nil, List.append_nil] at e5
        rw [e5]
      have ex : xs = [w :: tl] := one hk hd P.send (fun x hx => ⟨kind, P.packet x hx⟩) (P.words hf)
      have ex' : xs' = [b'] := one h2 hd' P'.send (fun x hx => ⟨kind', P'.packet x hx⟩) (P'.words hf)
      subst ex ex'
      refine ⟨b', h1, S', _, P.send, ?_, hx⟩
      rw [P'.send, hb']
      show Res.ok _ = Res.ok [channelled f (w :: tl)]
      rw [channelled_cons, if_pos (by rw [hwt]; exact htype)]
    by_cases h1 : d ∈ Msg.cv1All
    · obtain ⟨hg, -, -⟩ := channel1_props d h1
      obtain ⟨c, r1, r2⟩ := channel1_read (w :: tl) (by simp)
      have hc : c = U32.nibble w 3 := BitVec.eq_of_toNat_eq
        ((Option.some.inj r2).symm.trans (nibble_field w (i := 3) (by decide)).symm)
      subst hc
      obtain ⟨b', a1, a2, a3, a4⟩ := set_accepted hda hg rfl (w :: tl) hk
        (f (U32.nibble w 1) (U32.nibble w 3)) rfl
        (bit := fun i p => i = 0 ∧ 12 ≤ p ∧ p < 16) (mask_bits (.inr ⟨rfl, rfl⟩))
      obtain ⟨c', f1, f2⟩ := channel1_read b' (by rw [a4.1]; simp)
      rw [a3] at f1
      cases f1
      refine main b' ?_ a2 f2 a4
      rw [rechannel_fixed, if_pos h1, hgroup]
      show (FixedEnum.read .ump "channel" channel1Fld (d, w :: tl) >>= _) = _
      rw [fixedEnum_read hg, r1]
      show (FixedEnum.write .ump "channel" channel1Fld _ (d, w :: tl) >>= _) = _
      rw [fixedEnum_write hg _ b' _ a1]
      rfl
    · have h2 := hv.resolve_left h1
      obtain ⟨hg, -⟩ := channel2_props d h2
      obtain ⟨c, r1, r2⟩ := channel2_read (w :: tl) (by simp)
      have hc : c = U32.nibble w 3 := BitVec.eq_of_toNat_eq
        ((Option.some.inj r2).symm.trans (nibble_field w (i := 3) (by decide)).symm)
      subst hc
      obtain ⟨b', a1, a2, a3, a4⟩ := set_accepted hda hg rfl (w :: tl) hk
        (f (U32.nibble w 1) (U32.nibble w 3)) rfl
        (bit := fun i p => i = 0 ∧ 12 ≤ p ∧ p < 16) (mask_bits (.inr ⟨rfl, rfl⟩))
      obtain ⟨c', f1, f2⟩ := channel2_read b' (by rw [a4.1]; simp)
      rw [a3] at f1
      cases f1
      refine main b' ?_ a2 f2 a4
      rw [rechannel_fixed, if_neg h1, if_pos h2, hgroup]
      show (FixedEnum.read .ump "channel" channel2Fld (d, w :: tl) >>= _) = _
      rw [fixedEnum_read hg, r1]
      show (FixedEnum.write .ump "channel" channel2Fld _ (d, w :: tl) >>= _) = _
      rw [fixedEnum_write hg _ b' _ a1]
      rfl

theorem rechannels_sent (f : BitVec 4 → BitVec 4 → BitVec 4) {l : Lane} :
    ∀ {S : List (UmpKind × Buf .ump)} {all : List (Buf .ump)}, (∀ m ∈ S, Sent l m) →
    sendAll S = .ok all → ∃ S', rechannels f S = .ok S' ∧ (∀ m ∈ S', Sent l m) ∧
      sendAll S' = .ok (all.map (channelled f)) ∧ ∀ x ∈ all, ∃ k, Packet.tryFrom x = .ok (k, x)
  | [], all, _, h => by
    cases h
    exact ⟨[], rfl, (fun _ h => by cases h), rfl, (fun _ h => by cases h)⟩
  | m :: S, all, hS, h => by
    obtain ⟨b', a1, a3, ps, a4, a5, a6⟩ := rechannel_sent f (hS m List.mem_cons_self)
    obtain ⟨qs, hq⟩ := sendAll_ok fun m hm => hS m (List.mem_cons_of_mem _ hm)
    obtain ⟨S', b1, b2, b3, b4⟩ := rechannels_sent f (fun m hm => hS m (List.mem_cons_of_mem _ hm)) hq
    have e : sendAll (m :: S) = .ok (ps ++ qs) := by
      unfold sendAll
      rw [a4]
      show (sendAll S >>= _) = _
      rw [hq]; rfl
    cases Res.ok.inj (e.symm.trans h)
    refine ⟨(m.1, b') :: S', rechannels_cons a1 b1, ?_, ?_, ?_⟩
    · intro y hy
      rcases List.mem_cons.mp hy with rfl | hy
      · exact a3
      · exact b2 y hy
    · unfold sendAll
      rw [a5]
      show (sendAll S' >>= _) = _
      rw [b3, List.map_append]; rfl
    · intro x hx
      rcases List.mem_append.mp hx with hx | hx
      · exact (a6 x hx).2
      · exact b4 x hx

theorem rechannels_split {f : BitVec 4 → BitVec 4 → BitVec 4} {l : Lane} :
    ∀ {S S' t' u' : List (UmpKind × Buf .ump)},
    (∀ m ∈ S, Sent l m) → rechannels f S = .ok S' → S' = t' ++ u' →
    ∃ t u, S = t ++ u ∧ rechannels f t = .ok t' ∧ rechannels f u = .ok u'
  | S, S', [], u', _, h, e => ⟨[], S, rfl, rfl, by rw [h, e]; rfl⟩
  | [], S', a :: t', u', _, h, e => by cases h; cases e
  | m :: S, S', a :: t', u', hS, h, e => by
    obtain ⟨b', a1, -⟩ := rechannel_sent f (hS m List.mem_cons_self)
    obtain ⟨ms', b1⟩ : ∃ ms', rechannels f S = .ok ms' := by
      obtain ⟨qs, hq⟩ := sendAll_ok fun m hm => hS m (List.mem_cons_of_mem _ hm)
      obtain ⟨S', b1, -⟩ := rechannels_sent f (fun m hm => hS m (List.mem_cons_of_mem _ hm)) hq
      exact ⟨S', b1⟩
    have e' := Res.ok.inj ((rechannels_cons a1 b1).symm.trans (h.trans (congrArg Res.ok e)))
    rw [List.cons_append, List.cons.injEq] at e'
    obtain ⟨t, u, c1, c2, c3⟩ := rechannels_split (fun m hm => hS m (List.mem_cons_of_mem _ hm)) b1 e'.2
    exact ⟨m :: t, u, by rw [c1]; rfl, by rw [← e'.1]; exact rechannels_cons a1 c2, c3⟩

end Midi2.Rx
