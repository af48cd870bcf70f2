import Verif.Props.PacketsExact
import Verif.Props.ReparseExact
import Verif.Props.Follow
import Verif.Spec.Reassembly

/-!
# Lemmas for putting messages together from packets
-/

namespace Midi2.Rx

/-! ### One packet -/

theorem packet_of {x : Buf .ump} {p : Packet} (h : Packet.tryFrom x = .ok p) :
    p.1.tryFrom x = .ok p.2 := by
  by_cases hk : ∃ k : PacketKind, k.Accepts x
  · obtain ⟨k, hA⟩ := hk
    have e := (C34_packet_accepts_exactly x).1 k hA
    rw [h] at e
    cases Res.ok.inj e
    exact (C34_typed_accepts_exactly k x).1 hA
  · rw [(C34_packet_accepts_exactly x).2 fun k hA => hk ⟨k, hA⟩] at h
    cases h

theorem lane_eq {x : Buf .ump} {p : Packet} (h : Packet.tryFrom x = .ok p) :
    lane p = .ok (laneAt x) := by
  obtain ⟨k, p⟩ := p
  obtain ⟨hA, -, w, tb, tp, rfl, rfl⟩ := accepted_packet (packet_of h)
  have ht : field w 0 4 = k.code := Option.some.inj hA.type
  have hg : (U32.nibble w 1).toNat = field w 4 4 := nibble_field w (i := 1) (by decide)
  have hi : (U32.octet w 2).toNat = field w 16 8 := octet_field w (i := 2) (by decide)
  unfold laneAt
  rw [List.headD_cons, ht, ← hg, ← hi]
  cases k <;> rfl

theorem part_ok {x : Buf .ump} {p : Packet} (h : Packet.tryFrom x = .ok p) :
    ∃ st, part p = .ok st := by
  obtain ⟨k, p⟩ := p
  have hp := packet_of h
  cases k with
  | flexData => obtain ⟨s, -, h1, -⟩ := (C34_format x p).1 hp; exact ⟨s, h1⟩
  | umpStream => obtain ⟨s, -, h1, -⟩ := (C34_format x p).2.1 hp; exact ⟨s, h1⟩
  | sysex7 => obtain ⟨s, -, h1, -⟩ := (C34_format x p).2.2 hp; exact ⟨s, h1⟩
  | sysex8 => obtain ⟨s, -, -, -, h1, -⟩ := C34_sysex8_status x p hp; exact ⟨s, h1⟩
  | _ => exact ⟨_, rfl⟩

theorem deliver_ok (l : Lane) (b : Buf .ump) : ∃ g, deliver l b = .ok g ∧ ∀ y ∈ g, y.1 = l := by
  unfold deliver
  rcases (C05_ump_enums_total b).1 with ⟨k, hk⟩ | ⟨e, he⟩
  · rw [hk]
    exact ⟨_, rfl, fun y hy => by cases List.mem_singleton.mp hy; rfl⟩
  · rw [he]
    exact ⟨_, rfl, fun y hy => nomatch hy⟩

/-! ### One lane -/

/-- `step` on the words of one lane. -/
def step1 (keep : Bool) (l : Lane) (h x : Buf .ump) : Res (List Got × Buf .ump) :=
  match Packet.tryFrom x with
  | .panic => .panic
  | .err _ => .ok ([], h)
  | .ok p => do
    let st ← part p
    match st with
    | .complete => do return (← deliver l p.2, [])
    | .start => return ([], p.2)
    | .continue_ => return ([], h ++ p.2)
    | .end_ => do return (← deliver l (h ++ p.2), [])
    | .unexpectedEnd valid =>
      if keep = true ∧ valid = true then do return (← deliver l (h ++ p.2), [])
      else return ([], [])

theorem tryFrom_total (x : Buf .ump) : (∃ p, Packet.tryFrom x = .ok p) ∨
    ∃ e, Packet.tryFrom x = .err e := by
  by_cases hk : ∃ k : PacketKind, k.Accepts x
  · obtain ⟨k, hA⟩ := hk
    exact .inl ⟨_, (C34_packet_accepts_exactly x).1 k hA⟩
  · exact .inr ⟨_, (C34_packet_accepts_exactly x).2 fun k hA => hk ⟨k, hA⟩⟩

theorem put_self {α : Type} (h : Lane → α) (l : Lane) : put h l (h l) = h := by
  funext l'
  unfold put
  split
  · rename_i e; rw [e]
  · rfl

theorem step_eq (keep : Bool) (h : Lane → Buf .ump) (x : Buf .ump) :
    ∃ g b, step1 keep (laneAt x) (h (laneAt x)) x = .ok (g, b) ∧
      step keep h x = .ok (g, put h (laneAt x) b) ∧ ∀ y ∈ g, y.1 = laneAt x := by
  unfold step step1
  rcases tryFrom_total x with ⟨p, hp⟩ | ⟨e, he⟩
  · rw [hp]
    obtain ⟨st, hst⟩ := part_ok hp
    show ∃ g b, (part p >>= _) = _ ∧ (lane p >>= _) = _ ∧ _
    rw [hst, lane_eq hp]
    cases st with
    | complete =>
      obtain ⟨g, hg, hl⟩ := deliver_ok (laneAt x) p.2
      refine ⟨g, [], ?_, ?_, hl⟩
      · show (deliver _ _ >>= _) = _; rw [hg]; rfl
      · show (deliver _ _ >>= _) = _; rw [hg]; rfl
    | start => exact ⟨_, _, rfl, rfl, fun y hy => nomatch hy⟩
    | continue_ => exact ⟨_, _, rfl, rfl, fun y hy => nomatch hy⟩
    | end_ =>
      obtain ⟨g, hg, hl⟩ := deliver_ok (laneAt x) (h (laneAt x) ++ p.2)
      refine ⟨g, [], ?_, ?_, hl⟩
      · show (deliver _ _ >>= _) = _; rw [hg]; rfl
      · show (deliver _ _ >>= _) = _; rw [hg]; rfl
    | unexpectedEnd v =>
      by_cases hv : keep = true ∧ v = true
      · obtain ⟨g, hg, hl⟩ := deliver_ok (laneAt x) (h (laneAt x) ++ p.2)
        refine ⟨g, [], ?_, ?_, hl⟩
        · show (if keep = true ∧ v = true then _ else _) = _
          rw [if_pos hv]; show (deliver _ _ >>= _) = _; rw [hg]; rfl
        · show (if keep = true ∧ v = true then _ else _) = _
          rw [if_pos hv]; show (deliver _ _ >>= _) = _; rw [hg]; rfl
      · refine ⟨[], [], ?_, ?_, fun y hy => nomatch hy⟩
        · show (if keep = true ∧ v = true then _ else _) = _
          rw [if_neg hv]; rfl
        · show (if keep = true ∧ v = true then _ else _) = _
          rw [if_neg hv]; rfl
  · rw [he]
    exact ⟨[], h (laneAt x), rfl, by rw [put_self], fun y hy => nomatch hy⟩

/-- `receive` on the words of one lane. -/
def receive1 (keep : Bool) (l : Lane) : Buf .ump → List (Buf .ump) → Res (List Got)
  | _, [] => .ok []
  | h, x :: xs => do
    let (g, h) ← step1 keep l h x
    let gs ← receive1 keep l h xs
    return g ++ gs

theorem receive_ok (keep : Bool) : ∀ (s : List (Buf .ump)) (h : Lane → Buf .ump), ∃ out, receive keep h s = .ok out
  | [], _ => ⟨[], rfl⟩
  | x :: s, h => by
    obtain ⟨g, b, -, h2, -⟩ := step_eq keep h x
    obtain ⟨out, ho⟩ := receive_ok keep s (put h (laneAt x) b)
    refine ⟨g ++ out, ?_⟩
    unfold receive
    rw [h2]
    show (receive keep (put h (laneAt x) b) s >>= _) = _
    rw [ho]; rfl

/-- What is received on a lane depends on the packets of that lane only. -/
theorem receive_lane (keep : Bool) (l : Lane) : ∀ (s : List (Buf .ump)) (h : Lane → Buf .ump) (out : List Got),
    receive keep h s = .ok out →
    receive1 keep l (h l) (s.filter fun x => decide (laneAt x = l)) =
      .ok (out.filter fun g => decide (g.1 = l))
  | [], _, out, ho => by cases ho; rfl
  | x :: s, h, out, ho => by
    obtain ⟨g, b, h1, h2, h3⟩ := step_eq keep h x
    obtain ⟨gs, hgs⟩ := receive_ok keep s (put h (laneAt x) b)
    have e : receive keep h (x :: s) = .ok (g ++ gs) := by
      unfold receive
      rw [h2]
      show (receive keep (put h (laneAt x) b) s >>= _) = _
      rw [hgs]; rfl
    cases Res.ok.inj (ho.symm.trans e)
    have ih := receive_lane keep l s _ gs hgs
    rw [List.filter_append]
    by_cases hl : laneAt x = l
    · subst hl
      rw [List.filter_cons_of_pos (by simp), List.filter_eq_self (l := g) |>.mpr (fun y hy => by simpa using h3 y hy)]
      rw [show put h (laneAt x) b (laneAt x) = b by unfold put; rw [if_pos rfl]] at ih
      unfold receive1
      rw [h1]
      show (receive1 keep (laneAt x) b _ >>= _) = _
      rw [ih]; rfl
    · rw [List.filter_cons_of_neg (by simpa using hl),
        List.filter_eq_nil_iff (l := g) |>.mpr (fun y hy => by simpa [h3 y hy] using hl), List.nil_append]
      rw [show put h (laneAt x) b l = h l by unfold put; rw [if_neg (fun e => hl e.symm)]] at ih
      exact ih

/-! ### The packets of a message -/

/-- The statuses of the packets of a message; `e` is that of the last of several. -/
inductive Shape (kind : PacketKind) (e : PacketStatus) : List (Buf .ump) → Prop
  | one (x : Buf .ump) : part (kind, x) = .ok .complete → Shape kind e [x]
  | many (x : Buf .ump) (mid : List (Buf .ump)) (z : Buf .ump) : part (kind, x) = .ok .start →
      (∀ y ∈ mid, part (kind, y) = .ok .continue_) → part (kind, z) = .ok e →
      Shape kind e (x :: (mid ++ [z]))

theorem shape_of_index {kind : PacketKind} {e : PacketStatus} {xs : List (Buf .ump)} (h0 : xs ≠ [])
    (h : ∀ (j : Nat) x, xs[j]? = some x →
      (j + 1 = xs.length → xs.length ≠ 1 → part (kind, x) = .ok e) ∧
      (¬ (j + 1 = xs.length ∧ xs.length ≠ 1) →
        ∃ st, part (kind, x) = .ok st ∧ statusOfCode (statusCode xs.length j) = some st)) :
    Shape kind e xs := by
  cases xs with
  | nil => exact absurd rfl h0
  | cons x t =>
    by_cases ht : t = []
    · subst ht
      obtain ⟨st, h1, h2⟩ := (h 0 x rfl).2 (by simp)
      cases h2
      exact .one x h1
    · obtain ⟨mid, z, rfl⟩ : ∃ mid z, t = mid ++ [z] :=
        ⟨t.dropLast, t.getLast ht, (List.dropLast_concat_getLast ht).symm⟩
      have hlen : (x :: (mid ++ [z])).length = mid.length + 2 := by simp
      rw [hlen] at h
      refine .many x mid z ?_ ?_ ?_
      · obtain ⟨st, h1, h2⟩ := (h 0 x rfl).2 (by omega)
        unfold statusCode at h2
        rw [if_neg (by omega), if_pos rfl] at h2
        cases h2
        exact h1
      · intro y hy
        obtain ⟨j, hj, rfl⟩ := List.mem_iff_getElem.mp hy
        obtain ⟨st, h1, h2⟩ := (h (j + 1) mid[j] (by
          rw [List.getElem?_cons_succ, List.getElem?_append_left hj, List.getElem?_eq_getElem hj])).2
          (by omega)
        unfold statusCode at h2
        rw [if_neg (by omega), if_neg (by omega), if_neg (by omega)] at h2
        cases h2
        exact h1
      · exact (h (mid.length + 1) z (by
          rw [List.getElem?_cons_succ, List.getElem?_append_right (Nat.le_refl _), Nat.sub_self]
          rfl)).1 rfl (by omega)

theorem seqOk_index {fs : List Nat} (h : SeqOk fs) {j c : Nat} (hj : fs[j]? = some c) :
    c = statusCode fs.length j := by
  rcases h with rfl | ⟨n, rfl⟩
  · cases j with
    | zero => cases hj; rfl
    | succ j => cases hj
  · unfold statusCode
    simp only [List.length_cons, List.length_append, List.length_replicate, List.length_nil]
    rw [if_neg (by omega)]
    cases j with
    | zero => cases hj; rfl
    | succ j =>
      rw [if_neg (by omega)]
      rw [List.getElem?_cons_succ] at hj
      by_cases hn : j < n
      · rw [List.getElem?_append_left (by simpa using hn),
          List.getElem?_replicate, if_pos hn] at hj
        cases hj
        rw [if_neg (by omega)]
      · rw [List.getElem?_append_right (by simpa using hn), List.length_replicate] at hj
        have : j = n := by
          obtain ⟨hlt, -⟩ := List.getElem?_eq_some_iff.mp hj
          simp at hlt
          omega
        subst this
        rw [Nat.sub_self] at hj
        cases hj
        rw [if_pos (by omega)]

/-- A header in the run of packets of a type. -/
theorem run_field {b : List (BitVec 32)} {k t j : Nat} (hk : 0 < k) {r : List (BitVec 32)}
    (hr : r = (packetHeads k b).takeWhile fun w => decide (field w 0 4 = t)) {w : BitVec 32}
    (hj : r[j]? = some w) : b[k * j]? = some w := by
  have hp : r <+: packetHeads k b := by rw [hr]; exact List.takeWhile_prefix _
  obtain ⟨y, hy⟩ := hp
  obtain ⟨hlt, -⟩ := List.getElem?_eq_some_iff.mp hj
  rw [← Sx.packetHeads_getElem? k b hk, ← hy, List.getElem?_append_left hlt]
  exact hj

/-- The code in the header of a packet of a message. -/
theorem code_at {b : List (BitVec 32)} {n t : Nat} (hn : 0 < n) {r : List (BitVec 32)}
    (hr : r = (packetHeads n b).takeWhile fun w => decide (field w 0 4 = t)) {pos width : Nat}
    (hs : SeqOk (r.map fun w => field w pos width)) {ps : List (Buf .ump)}
    (hl : ∀ p ∈ ps, p.length = n) (hf : ps.flatten = b) (hlen : ps.length = r.length)
    {j : Nat} {c : Buf .ump} (hc : ps[j]? = some c) :
    fieldAt c 0 pos width = some (statusCode ps.length j) := by
  have hj : j < r.length := by
    rw [← hlen]; exact (List.getElem?_eq_some_iff.mp hc).1
  have h1 := run_field hn hr (List.getElem?_eq_getElem hj)
  rw [chunk_field (b := b) (List.prefix_refl b) hn hl hf hc]
  unfold fieldAt
  rw [h1, Option.map_some, hlen]
  refine congrArg some ?_
  have := seqOk_index hs (j := j) (c := field r[j] pos width) (by
    rw [List.getElem?_map, List.getElem?_eq_getElem hj]; rfl)
  rw [List.length_map] at this
  exact this

theorem laneAt_congr {b c : Buf .ump} (hb : b ≠ []) (hc : c ≠ []) {t : Nat}
    (h0 : fieldAt b 0 0 4 = some t) (h1 : fieldAt c 0 0 4 = some t)
    (hg : t ≠ 15 → fieldAt c 0 4 4 = fieldAt b 0 4 4)
    (hi : t = 5 → fieldAt c 0 16 8 = fieldAt b 0 16 8) : laneAt c = laneAt b := by
  cases b with
  | nil => exact absurd rfl hb
  | cons w b =>
    cases c with
    | nil => exact absurd rfl hc
    | cons v c =>
      simp only [fieldAt_cons, Option.some.injEq] at h0 h1 hg hi
      unfold laneAt
      simp only [List.headD_cons, h0, h1]
      by_cases h15 : t = 15
      · subst h15; rfl
      · rw [hg h15]
        by_cases h5 : t = 5
        · rw [hi h5]
        · rw [if_neg h5, if_neg h5]

theorem pack_ok {kind : PacketKind} : ∀ {ps : List (Buf .ump)},
    (∀ c ∈ ps, Packet.tryFrom c = .ok (kind, c)) → pack ps = .ok ps
  | [], _ => rfl
  | c :: ps, h => by
    unfold pack
    rw [h c List.mem_cons_self]
    show (pack ps >>= _) = _
    rw [pack_ok fun c hc => h c (List.mem_cons_of_mem _ hc)]; rfl

/-- What the packets of a message are. -/
structure Parts (l : Lane) (m : UmpKind × Buf .ump) (kind : PacketKind) (xs : List (Buf .ump)) : Prop
    where
  send : send m = .ok xs
  packet : ∀ x ∈ xs, Packet.tryFrom x = .ok (kind, x)
  lane : ∀ x ∈ xs, laneAt x = l
  early : EmptyEnd m → xs.length ≠ 1 ∧ Shape kind (.unexpectedEnd true) xs
  shape : ¬ EmptyEnd m → Shape kind .end_ xs
  parsed : UmpMessage.tryFrom xs.flatten = .ok (m.1, xs.flatten)
  data : UmpMessage.data (m.1, xs.flatten) = .ok m.2
  words : m.1 ≠ .fixed Msg.streamFunctionBlockDiscovery → xs.flatten = m.2
  filled : m.1 = .fixed Msg.streamFunctionBlockDiscovery → xs.flatten = m.2 ++ [0, 0, 0]

theorem not_emptyEnd {m : UmpKind × Buf .ump} (h : m.1 ≠ .sysex .s8) : ¬ EmptyEnd m :=
  fun e => h e.1

/-- Shape of the packets of a message whose headers have the codes of a message of so many
packets, for the kinds whose status is the code. -/
theorem shape_of_codes {kind : PacketKind} {xs : List (Buf .ump)} (h0 : xs ≠ [])
    (hp : ∀ x ∈ xs, Packet.tryFrom x = .ok (kind, x)) {pos width : Nat}
    (hk : (kind = .sysex7 ∧ pos = 8 ∧ width = 4) ∨ (kind = .flexData ∧ pos = 8 ∧ width = 2) ∨
      (kind = .umpStream ∧ pos = 4 ∧ width = 2))
    (hc : ∀ (j : Nat) x, xs[j]? = some x → fieldAt x 0 pos width = some (statusCode xs.length j)) :
    Shape kind .end_ xs := by
  have key : ∀ (j : Nat) x, xs[j]? = some x → ∃ st, part (kind, x) = .ok st ∧
      statusOfCode (statusCode xs.length j) = some st := by
    intro j x hx
    have h1 := packet_of (hp x (List.mem_of_getElem? hx))
    have h2 := hc j x hx
    rcases hk with ⟨rfl, rfl, rfl⟩ | ⟨rfl, rfl, rfl⟩ | ⟨rfl, rfl, rfl⟩
    · obtain ⟨s, c, e1, e2, e3⟩ := (C34_format x x).2.2 h1
      cases Option.some.inj (h2.symm.trans e2)
      exact ⟨s, e1, e3⟩
    · obtain ⟨s, c, e1, e2, e3⟩ := (C34_format x x).1 h1
      cases Option.some.inj (h2.symm.trans e2)
      exact ⟨s, e1, e3⟩
    · obtain ⟨s, c, e1, e2, e3⟩ := (C34_format x x).2.1 h1
      cases Option.some.inj (h2.symm.trans e2)
      exact ⟨s, e1, e3⟩
  refine shape_of_index h0 fun j x hx => ⟨fun h1 h2 => ?_, fun _ => key j x hx⟩
  obtain ⟨st, e1, e2⟩ := key j x hx
  unfold statusCode at e2
  rw [if_neg h2, if_neg (by omega), if_pos h1] at e2
  cases e2
  exact e1

/-- The last packet is empty. -/
def EmptyPacket (x : Buf .ump) : Prop :=
  fieldAt x 0 12 4 = some 1 ∧ octetVal x 3 = 0 ∧ x.tail = [0, 0, 0]

theorem emptyEnd_iff {b : Buf .ump} {ps : List (Buf .ump)} (hf : ps.flatten = b)
    (hl : ∀ p ∈ ps, p.length = 4) {j : Nat} {x : Buf .ump} (hx : ps[j]? = some x)
    (hj : j + 1 = ps.length) :
    EmptyEnd (.sysex .s8, b) ↔ ps.length ≠ 1 ∧ EmptyPacket x := by
  obtain ⟨hlt, hxe⟩ := List.getElem?_eq_some_iff.mp hx
  have hsplit : ps = ps.take j ++ [x] := by
    have := List.take_append_drop j ps
    rw [List.drop_eq_getElem_cons hlt, List.drop_eq_nil_of_le (by omega), hxe] at this
    exact this.symm
  have hb : b = (ps.take j).flatten ++ x := by
    rw [← hf]
    conv => lhs; rw [hsplit]
    rw [List.flatten_append]; simp
  have hxl : x.length = 4 := hl x (List.mem_of_getElem? hx)
  constructor
  · rintro ⟨-, y, w, h1, h2, h3, h4⟩
    have h2 : b = y ++ [w, 0, 0, 0] := h2
    obtain ⟨e1, e2⟩ := List.append_inj' (hb.symm.trans h2) (by rw [hxl]; rfl)
    subst e2
    refine ⟨fun h => h1 ?_, by rw [fieldAt_cons, h3], h4, rfl⟩
    have : j = 0 := by omega
    rw [← e1, this]; rfl
  · rintro ⟨h1, h2, h3, h4⟩
    obtain ⟨w, t, rfl⟩ : ∃ w t, x = w :: t := by
      cases x with
      | nil => cases hxl
      | cons w t => exact ⟨w, t, rfl⟩
    have h4 : t = [0, 0, 0] := h4
    subst h4
    refine ⟨rfl, (ps.take j).flatten, w, fun e => ?_, hb, Option.some.inj h2, h3⟩
    have h0 : 0 < j := by omega
    have hm : ps[0] ∈ ps.take j := by
      rw [List.mem_take_iff_getElem]
      exact ⟨0, by omega, rfl⟩
    have := List.flatten_eq_nil_iff.mp e _ hm
    have h' := hl ps[0] (List.getElem_mem _)
    rw [this] at h'
    cases h'

theorem s8_status {x : Buf .ump} (hp : Packet.tryFrom x = .ok (.sysex8, x)) (hxl : x.length = 4)
    {c : Nat} (hc : fieldAt x 0 8 4 = some c) :
    ∃ st, part (.sysex8, x) = .ok st ∧ (st = .unexpectedEnd true ↔ c = 3 ∧ EmptyPacket x) ∧
      (st = .unexpectedEnd false → c = 3 ∧ fieldAt x 0 12 4 = some 15) ∧
      (statusOfCode c = some st ∨ ∃ v, st = .unexpectedEnd v) := by
  obtain ⟨st, c', n, i, e1, -, e2, e3, -, e4, e5, e6⟩ := C34_sysex8_status x x (packet_of hp)
  cases Option.some.inj (hc.symm.trans e2)
  have ht : x.take 4 = x := List.take_of_length_le (by omega)
  rw [ht] at e4 e5
  refine ⟨st, e1, e4.trans ⟨fun ⟨a, b, c, d⟩ => ⟨a, by rw [e3, b], c, d⟩, fun ⟨a, b, c, d⟩ =>
    ⟨a, Option.some.inj (e3.symm.trans b), c, d⟩⟩, fun h => ?_, e6⟩
  obtain ⟨a, b, -⟩ := e5.mp h
  exact ⟨a, by rw [e3, b]⟩

theorem shape_s8 {xs : List (Buf .ump)} (h0 : xs ≠ [])
    (hp : ∀ x ∈ xs, Packet.tryFrom x = .ok (.sysex8, x)) (hl : ∀ x ∈ xs, x.length = 4)
    (hc : ∀ (j : Nat) x, xs[j]? = some x → fieldAt x 0 8 4 = some (statusCode xs.length j))
    (he : ∀ (j : Nat) x, xs[j]? = some x → j + 1 = xs.length → xs.length ≠ 1 →
      xs.length ≠ 1 ∧ EmptyPacket x) : Shape .sysex8 (.unexpectedEnd true) xs := by
  refine shape_of_index h0 fun j x hx => ?_
  have hm := List.mem_of_getElem? hx
  obtain ⟨st, e1, e2, e3, e4⟩ := s8_status (hp x hm) (hl x hm) (hc j x hx)
  refine ⟨fun h1 h2 => ?_, fun h1 => ⟨st, e1, ?_⟩⟩
  · rw [e1, e2.mpr ⟨?_, (he j x hx h1 h2).2⟩]
    unfold statusCode
    rw [if_neg h2, if_neg (by omega), if_pos h1]
  · rcases e4 with e4 | ⟨v, rfl⟩
    · exact e4
    · have h3 : statusCode xs.length j = 3 := by
        cases v
        · exact (e3 rfl).1
        · exact (e2.mp rfl).1
      unfold statusCode at h3
      split at h3
      · cases h3
      · split at h3
        · cases h3
        · split at h3
          · rename_i a _ b
            exact absurd ⟨b, a⟩ h1
          · cases h3

theorem shape_s8_end {xs : List (Buf .ump)} (h0 : xs ≠ [])
    (hp : ∀ x ∈ xs, Packet.tryFrom x = .ok (.sysex8, x)) (hl : ∀ x ∈ xs, x.length = 4)
    (hc : ∀ (j : Nat) x, xs[j]? = some x → fieldAt x 0 8 4 = some (statusCode xs.length j))
    (hn : ∀ (j : Nat) x, xs[j]? = some x → ∃ n, fieldAt x 0 12 4 = some n ∧ n ≤ 14)
    (he : ∀ (j : Nat) x, xs[j]? = some x → j + 1 = xs.length → xs.length ≠ 1 → ¬ EmptyPacket x) :
    Shape .sysex8 .end_ xs := by
  have key : ∀ (j : Nat) x, xs[j]? = some x → ∃ st, part (.sysex8, x) = .ok st ∧
      statusOfCode (statusCode xs.length j) = some st := by
    intro j x hx
    have hm := List.mem_of_getElem? hx
    obtain ⟨st, e1, e2, e3, e4⟩ := s8_status (hp x hm) (hl x hm) (hc j x hx)
    refine ⟨st, e1, e4.resolve_right ?_⟩
    rintro ⟨v, rfl⟩
    cases v
    · obtain ⟨n, n1, n2⟩ := hn j x hx
      cases Option.some.inj (n1.symm.trans (e3 rfl).2)
      omega
    · obtain ⟨h3, h4⟩ := e2.mp rfl
      unfold statusCode at h3
      split at h3
      · cases h3
      · split at h3
        · cases h3
        · split at h3
          · rename_i a _ b
            exact he j x hx b a h4
          · cases h3
  refine shape_of_index h0 fun j x hx => ⟨fun h1 h2 => ?_, fun _ => key j x hx⟩
  obtain ⟨st, e1, e2⟩ := key j x hx
  unfold statusCode at e2
  rw [if_neg h2, if_neg (by omega), if_pos h1] at e2
  cases e2
  exact e1

/-- A flex data message of fixed size says that it is complete. -/
theorem flex_complete {d : MsgDesc} {h : Header} (he : (UmpKind.fixed d, h) ∈ umpTable)
    (hT : h.type = 13) {b : Buf .ump} (hok : d.tryFrom .ump b = .ok b) :
    fieldAt b 0 8 2 = some 0 := by
  have : (umpTable.all fun e => match e.1 with
    | .fixed d => decide (e.2.type ≠ 13) || d.props.any fun q => match q.2 with
      | .flexFormat f => decide (f = 0) | _ => false
    | _ => true) = true := by decide +kernel
  have := List.all_eq_true.mp this _ he
  simp only [hT, ne_eq, not_true_eq_false, decide_false, Bool.false_or] at this
  obtain ⟨⟨n, f⟩, hq, hq'⟩ := List.any_eq_true.mp this
  cases f with
  | flexFormat f =>
    have hf : f = 0 := by simpa using hq'
    subst hf
    have hw : d.WellFormed .ump b := Classical.byContradiction fun hn => by
      rw [(C07_ump_accepts_exactly (table_demands _ he d rfl).1 b).2 hn] at hok; cases hok
    exact hw.2 _ hq
  | _ => cases hq'

theorem parts_of_sent {l : Lane} {m : UmpKind × Buf .ump} (h : Sent l m) :
    ∃ kind xs, Parts l m kind xs := by
  obtain ⟨k, b⟩ := m
  have hok : UmpMessage.tryFrom b = .ok (k, b) := h.parsed
  have hd : UmpMessage.data (k, b) = .ok b := h.whole
  have hl : laneAt b = l := h.onLane
  have hcomp : k.Complete b := Classical.byContradiction fun hc => by
    rw [((C06_ump_message_exactly b b k hok).2 hc).1] at hd
    cases hd
  obtain ⟨-, hk, hdr, he, ho⟩ := C10_ump_variant b b k hok
  by_cases hf : k = .fixed Msg.streamFunctionBlockDiscovery
  · subst hf
    have hm := (table_demands _ he _ rfl).1
    have hlen : 1 ≤ b.length := ((tryFrom_iff Msg.streamFunctionBlockDiscovery .ump b).mp hk).1
    obtain ⟨p, q1, q2, q3, q4, -⟩ := C33_fixed_packets hm b hlen
    have hpb : p = b := Res.ok.inj (q2.symm.trans hd)
    subst hpb
    obtain ⟨w, rfl⟩ : ∃ w, p = [w] := List.length_eq_one_iff.mp q4
    have h15 : field w 0 4 = 15 := by
      have : ∀ e ∈ umpTable, e.1 = .fixed Msg.streamFunctionBlockDiscovery → e.2.type = 15 := by
        decide +kernel
      have := this _ he rfl
      have h1 := ho.1
      rw [fieldAt_cons, this] at h1
      exact Option.some.inj h1
    have hA : ∀ t, PacketKind.umpStream.Accepts (w :: t) := fun t =>
      ⟨Nat.succ_le_succ (Nat.zero_le _), by rw [fieldAt_cons, h15]; rfl,
        (fun h => by rcases h with h | h <;> cases h), (fun h => by cases h)⟩
    have hform : fieldAt [w] 0 4 2 = some 0 := by
      by_cases hs : fieldAt [w] 0 0 4 = some 15 → fieldAt [w] 0 4 2 = some 0
      · exact hs (by rw [fieldAt_cons, h15])
      · exact nomatch ((C53_fixed_ump_exactly hm [w] [w] hk hd).2.1 hs).symm.trans hk
    have h1 : Packet.tryFrom [w] = .ok (.umpStream, [w, 0, 0, 0]) :=
      (C34_packet_accepts_exactly [w]).1 _ (hA [])
    have h2 : Packet.tryFrom [w, 0, 0, 0] = .ok (.umpStream, [w, 0, 0, 0]) :=
      (C34_packet_accepts_exactly [w, 0, 0, 0]).1 _ (hA [0, 0, 0])
    have hfl := (C12_ump_message_exactly [w] _ hok hd [0, 0, 0]).1 ⟨fun hx => absurd hx (by decide +kernel),
      fun _ => ⟨fun e => (nomatch e), fun j hj => by
        have : j = 0 := by simp at hj; omega
        subst this; rfl⟩⟩
    refine ⟨.umpStream, [[w, 0, 0, 0]], ?_, ?_, ?_, ?_, ?_, hfl.1, hfl.2,
      fun e => absurd rfl e, fun _ => rfl⟩
    · unfold send
      rw [show UmpMessage.packets (.fixed Msg.streamFunctionBlockDiscovery, [w]) = .ok [[w]] from q1]
      show pack [[w]] = _
      unfold pack
      rw [h1]; rfl
    · intro x hx
      cases List.mem_singleton.mp hx
      exact h2
    · intro x hx
      cases List.mem_singleton.mp hx
      exact hl
    · exact fun e => absurd e (not_emptyEnd (by simp))
    · intro _
      refine shape_of_codes (by simp) (fun x hx => by cases List.mem_singleton.mp hx; exact h2)
        (.inr (.inr ⟨rfl, rfl, rfl⟩)) fun j x hx => ?_
      cases j with
      | succ j => cases hx
      | zero => cases hx; exact hform
  · obtain ⟨d, ps, hdr', kind, a1, a2, a3, a4, a5, a6, a7, a8⟩ := accepted_chunks b b k hok hcomp hf
    cases Res.ok.inj (hd.symm.trans a1)
    have hw : 0 < k.packetWords := by
      cases k with
      | fixed d => exact (by decide +kernel : ∀ d ∈ Msg.all, 0 < d.umpSize) d (table_demands _ he d rfl).1
      | sysex s => cases s <;> decide
      | _ => exact (by decide : 0 < 4)
    have hb : b ≠ [] := by rintro rfl; cases a6
    have hps : ps ≠ [] := by rintro rfl; exact hb a4.symm
    have hcf : ∀ {j : Nat} {c : Buf .ump} (x y : Nat), ps[j]? = some c →
        fieldAt c 0 x y = fieldAt b (k.packetWords * j) x y :=
      fun x y hc => chunk_field (List.prefix_refl b) hw a7 a4 hc x y
    have htype : ∀ c ∈ ps, fieldAt c 0 0 4 = some hdr'.type := fun c hc => by
      have := (accepted_packet (packet_of (a8 c hc))).1.type
      rw [a5] at this
      exact this
    have hne : ∀ c ∈ ps, c ≠ [] := fun c hc e => by
      have := htype c hc
      rw [e] at this
      cases this
    have hsend : send (k, b) = .ok ps := by
      unfold send
      rw [a2]
      exact pack_ok a8
    have build : (∀ (j : Nat) c, ps[j]? = some c → hdr'.type ≠ 15 → fieldAt c 0 4 4 = fieldAt b 0 4 4) →
        (∀ (j : Nat) c, ps[j]? = some c → hdr'.type = 5 → fieldAt c 0 16 8 = fieldAt b 0 16 8) →
        (EmptyEnd (k, b) → ps.length ≠ 1 ∧ Shape kind (.unexpectedEnd true) ps) →
        (¬ EmptyEnd (k, b) → Shape kind .end_ ps) → ∃ kind xs, Parts l (k, b) kind xs := by
      intro b1 b2 b3 b4
      refine ⟨kind, ps, hsend, a8, fun x hx => ?_, b3, b4, by rw [a4]; exact hok, by rw [a4]; exact hd,
        fun _ => a4, fun e => absurd e hf⟩
      obtain ⟨j, hj⟩ := List.getElem?_of_mem hx
      rw [← hl]
      exact laneAt_congr hb (hne x hx) a6 (htype x hx) (b1 j x hj) (b2 j x hj)
    have hcode : kind.code = hdr'.type := a5
    cases k with
    | fixed d =>
      have hm := (table_demands _ he d rfl).1
      obtain ⟨p, q1, q2, -⟩ := C33_fixed_packets hm b ((tryFrom_iff d .ump b).mp hk).1
      cases Res.ok.inj (q2.symm.trans hd)
      cases Res.ok.inj (a2.symm.trans q1)
      have hone : ∀ (j : Nat) c, [b][j]? = some c → c = b := fun j c hc => by
        cases j with
        | zero => cases hc; rfl
        | succ j => cases hc
      refine build (fun j c hc _ => by rw [hone j c hc]) (fun j c hc _ => by rw [hone j c hc])
        (fun e => absurd e (not_emptyEnd (by simp))) fun _ => ?_
      have hpb : Packet.tryFrom b = .ok (kind, b) := a8 b (List.mem_singleton.mpr rfl)
      cases kind with
      | flexData =>
        refine shape_of_codes hps a8 (.inr (.inl ⟨rfl, rfl, rfl⟩)) fun j c hc => ?_
        cases j with
        | succ j => cases hc
        | zero => cases hc; exact flex_complete a3 a5.symm hk
      | umpStream =>
        refine shape_of_codes hps a8 (.inr (.inr ⟨rfl, rfl, rfl⟩)) fun j c hc => ?_
        cases j with
        | succ j => cases hc
        | zero =>
          cases hc
          have h15 : fieldAt b 0 0 4 = some 15 := by rw [a6, ← a5]; rfl
          by_cases hs : fieldAt b 0 0 4 = some 15 → fieldAt b 0 4 2 = some 0
          · exact hs h15
          · exact nomatch ((C53_fixed_ump_exactly hm b b hk hd).2.1 hs).symm.trans hk
      | sysex7 =>
        rcases packet_table _ a3 d rfl with e | ⟨kind', hm', e1, -⟩
        · exact absurd (congrArg UmpKind.fixed e) hf
        · rw [← a5] at e1
          revert e1
          cases kind' <;> first | (intro e1; exact absurd e1 (by decide)) | (intro _; exact absurd hm' (by decide))
      | sysex8 =>
        rcases packet_table _ a3 d rfl with e | ⟨kind', hm', e1, -⟩
        · exact absurd (congrArg UmpKind.fixed e) hf
        · rw [← a5] at e1
          revert e1
          cases kind' <;> first | (intro e1; exact absurd e1 (by decide)) | (intro _; exact absurd hm' (by decide))
      | _ => exact .one _ rfl
    | sysex s =>
      have A := (Sx.tryFrom_iff s b).mp hk
      have hu : s.layout.words * (s.layout.run b).length ≤ b.length := hcomp
      have hT : hdr'.type = s.layout.type := by rw [show hdr' = _ from table_other _ a3]
      obtain ⟨g, sizes, M, hlen, _, _, _, _, m3⟩ := C23_payload_of_accepted s b hk hcomp
      have hplen : ps.length = (s.layout.run b).length := by
        have e1 : b.length = s.layout.words * sizes.length := by
          have := congrArg List.length (Res.ok.inj ((show s.data b = .ok b from hd).symm.trans m3))
          rw [List.length_take] at this
          have := M.whole
          omega
        have e2 : b.length = ps.length * s.layout.words := by
          rw [← a4, List.length_flatten, List.eq_replicate_of_mem (a := s.layout.words) (l := ps.map List.length)
            (by intro x hx; obtain ⟨c, hc, rfl⟩ := List.mem_map.mp hx; exact a7 c hc)]
          simp
        rw [← hlen]
        have hw : 0 < s.layout.words := hw
        rw [e1, Nat.mul_comm] at e2
        exact Nat.eq_of_mul_eq_mul_right hw e2.symm
      have hjr : ∀ {j : Nat} {c : Buf .ump}, ps[j]? = some c → j < (s.layout.run b).length := fun hc => by
        rw [← hplen]; exact (List.getElem?_eq_some_iff.mp hc).1
      have hroom : ∀ {j : Nat} {c : Buf .ump}, ps[j]? = some c → s.layout.words * (j + 1) ≤ b.length :=
        fun hc => Nat.le_trans (Nat.mul_le_mul_left _ (hjr hc)) hu
      have hcodes : ∀ (j : Nat) x, ps[j]? = some x →
          fieldAt x 0 8 4 = some (statusCode ps.length j) := fun j x hx =>
        code_at (t := s.layout.type) hw (r := s.layout.run b) rfl A.statuses a7 a4 hplen hx
      refine build (fun j c hc _ => by rw [hcf 4 4 hc]; exact A.groups j (hjr hc) (hroom hc))
        (fun j c hc h5 => by
          rw [hcf 16 8 hc]
          refine A.streams ?_ j (hjr hc) (hroom hc)
          rw [hT] at h5
          revert h5
          cases s
          · intro h5; exact absurd h5 (by decide)
          · intro _; rfl) ?_ ?_
      · cases s with
        | s7 => exact fun e => absurd e (not_emptyEnd (by simp))
        | s8 =>
          intro he
          obtain rfl : kind = .sysex8 := by
            rw [hT] at hcode; revert hcode; cases kind <;> first | (intro _; rfl) | (intro e; exact absurd e (by decide))
          have hpos := List.length_pos_iff.mpr hps
          exact ⟨((emptyEnd_iff (j := ps.length - 1) a4 a7 (List.getElem?_eq_getElem (by omega))
            (by omega)).mp he).1, shape_s8 hps a8 a7 hcodes fun j x hx e1 e2 =>
              ((emptyEnd_iff a4 a7 hx e1).mp he)⟩
      · cases s with
        | s7 =>
          intro _
          obtain rfl : kind = .sysex7 := by
            rw [hT] at hcode; revert hcode; cases kind <;> first | (intro _; rfl) | (intro e; exact absurd e (by decide))
          exact shape_of_codes hps a8 (.inl ⟨rfl, rfl, rfl⟩) hcodes
        | s8 =>
          intro he
          obtain rfl : kind = .sysex8 := by
            rw [hT] at hcode; revert hcode; cases kind <;> first | (intro _; rfl) | (intro e; exact absurd e (by decide))
          refine shape_s8_end hps a8 a7 hcodes (fun j x hx => ?_) fun j x hx e1 e2 e3 =>
            he ((emptyEnd_iff a4 a7 hx e1).mpr ⟨e2, e3⟩)
          obtain ⟨n, n1, -, n3⟩ := A.sizes j (hroom hx)
          exact ⟨n, by rw [hcf 12 4 hx]; exact n1, n3⟩
    | flexText t =>
      have A := (FlexText.tryFrom_iff t b).mp hk
      obtain ⟨d', ps', q1, q2, q3, q4, q5, q6⟩ := C06_flex_text_data_partial t b hk hcomp
      cases Res.ok.inj (q3.symm.trans a2)
      have hT : hdr'.type = 13 := by rw [show hdr' = _ from (table_other _ a3).2]
      obtain rfl : kind = .flexData := by
        rw [hT] at hcode; revert hcode; cases kind <;> first | (intro _; rfl) | (intro e; exact absurd e (by decide))
      have hjr : ∀ {j : Nat} {c : Buf .ump}, ps[j]? = some c → j < (FlexText.run b).length := fun hc => by
        rw [← q4]; exact (List.getElem?_eq_some_iff.mp hc).1
      have hu : 4 * (FlexText.run b).length ≤ b.length := hcomp
      refine build (fun j c hc _ => ?_) (fun j c hc h5 => absurd h5 (by rw [hT]; decide))
        (fun e => absurd e (not_emptyEnd (by simp))) fun _ => ?_
      · rw [hcf 4 4 hc]
        exact A.groups j (hjr hc) (by have := hjr hc; omega)
      · exact shape_of_codes hps a8 (.inr (.inl ⟨rfl, rfl, rfl⟩)) fun j x hx =>
          code_at (t := 13) (by decide : 0 < 4) (r := FlexText.run b) rfl A.formats a7 a4 q4 hx
    | streamText t =>
      have ht := (table_other _ a3).1
      have A := (StreamText.tryFrom_iff (StreamText.known_of_mem ht) b).mp hk
      obtain ⟨d', ps', q1, q2, q3, q4, q5, q6⟩ := C06_stream_text_data_partial t ht b hk hcomp
      cases Res.ok.inj (q3.symm.trans a2)
      have hT : hdr'.type = 15 := by rw [show hdr' = _ from (table_other _ a3).2]
      obtain rfl : kind = .umpStream := by
        rw [hT] at hcode; revert hcode; cases kind <;> first | (intro _; rfl) | (intro e; exact absurd e (by decide))
      refine build (fun j c hc h => absurd hT h) (fun j c hc h5 => absurd h5 (by rw [hT]; decide))
        (fun e => absurd e (not_emptyEnd (by simp))) fun _ => ?_
      exact shape_of_codes hps a8 (.inr (.inr ⟨rfl, rfl, rfl⟩)) fun j x hx =>
          code_at (t := 15) (by decide : 0 < 4) (r := StreamText.run b) rfl A.formats a7 a4 q4 hx

/-! ### Receiving a message -/

theorem bind_nil (r : Res (List Got)) : (r >>= fun gs => pure ([] ++ gs)) = r := by
  cases r <;> rfl

theorem receive1_step {keep : Bool} {l : Lane} {h h' x : Buf .ump} {g : List Got} (hs : step1 keep l h x = .ok (g, h'))
    (rest : List (Buf .ump)) :
    receive1 keep l h (x :: rest) = (receive1 keep l h' rest >>= fun gs => pure (g ++ gs)) := by
  conv => lhs; unfold receive1
  rw [hs]; rfl

theorem step1_start {keep : Bool} {l : Lane} {h x : Buf .ump} {kind : PacketKind}
    (hx : Packet.tryFrom x = .ok (kind, x)) (hp : part (kind, x) = .ok .start) :
    step1 keep l h x = .ok ([], x) := by
  unfold step1
  rw [hx]
  show (part (kind, x) >>= _) = _
  rw [hp]; rfl

theorem step1_continue {keep : Bool} {l : Lane} {h x : Buf .ump} {kind : PacketKind}
    (hx : Packet.tryFrom x = .ok (kind, x)) (hp : part (kind, x) = .ok .continue_) :
    step1 keep l h x = .ok ([], h ++ x) := by
  unfold step1
  rw [hx]
  show (part (kind, x) >>= _) = _
  rw [hp]; rfl

theorem step1_lost {keep : Bool} {l : Lane} {h x : Buf .ump} {kind : PacketKind} {v : Bool}
    (hv : keep = false)
    (hx : Packet.tryFrom x = .ok (kind, x)) (hp : part (kind, x) = .ok (.unexpectedEnd v)) :
    step1 keep l h x = .ok ([], []) := by
  unfold step1
  rw [hx]
  show (part (kind, x) >>= _) = _
  rw [hp]
  show (if keep = true ∧ v = true then _ else _) = _
  rw [if_neg (by rw [hv]; simp)]; rfl

theorem step1_complete {keep : Bool} {l : Lane} {h x : Buf .ump} {kind : PacketKind} {k : UmpKind}
    (hx : Packet.tryFrom x = .ok (kind, x)) (hp : part (kind, x) = .ok .complete)
    (hm : UmpMessage.tryFrom x = .ok (k, x)) : step1 keep l h x = .ok ([(l, k, x)], []) := by
  unfold step1
  rw [hx]
  show (part (kind, x) >>= _) = _
  rw [hp]
  show (deliver l x >>= _) = _
  unfold deliver
  rw [hm]; rfl

theorem step1_end {keep : Bool} {l : Lane} {h x : Buf .ump} {kind : PacketKind} {k : UmpKind}
    (hx : Packet.tryFrom x = .ok (kind, x)) (hp : part (kind, x) = .ok .end_)
    (hm : UmpMessage.tryFrom (h ++ x) = .ok (k, h ++ x)) :
    step1 keep l h x = .ok ([(l, k, h ++ x)], []) := by
  unfold step1
  rw [hx]
  show (part (kind, x) >>= _) = _
  rw [hp]
  show (deliver l (h ++ x) >>= _) = _
  unfold deliver
  rw [hm]; rfl

theorem step1_kept {l : Lane} {h x : Buf .ump} {kind : PacketKind} {k : UmpKind}
    (hx : Packet.tryFrom x = .ok (kind, x)) (hp : part (kind, x) = .ok (.unexpectedEnd true))
    (hm : UmpMessage.tryFrom (h ++ x) = .ok (k, h ++ x)) :
    step1 true l h x = .ok ([(l, k, h ++ x)], []) := by
  unfold step1
  rw [hx]
  show (part (kind, x) >>= _) = _
  rw [hp]
  show (deliver l (h ++ x) >>= _) = _
  unfold deliver
  rw [hm]; rfl

theorem receive1_mid {keep : Bool} {l : Lane} {kind : PacketKind} (rest : List (Buf .ump)) :
    ∀ (mid : List (Buf .ump)) (h : Buf .ump),
    (∀ y ∈ mid, Packet.tryFrom y = .ok (kind, y) ∧ part (kind, y) = .ok .continue_) →
    receive1 keep l h (mid ++ rest) = receive1 keep l (h ++ mid.flatten) rest
  | [], h, _ => by simp
  | y :: mid, h, hy => by
    obtain ⟨h1, h2⟩ := hy y List.mem_cons_self
    rw [List.cons_append, receive1_step (step1_continue h1 h2), bind_nil,
      receive1_mid rest mid _ fun z hz => hy z (List.mem_cons_of_mem _ hz), List.flatten_cons,
      List.append_assoc]

/-- All packets of a message. -/
theorem Parts.receive {keep : Bool} {l : Lane} {m : UmpKind × Buf .ump} {kind : PacketKind} {xs : List (Buf .ump)}
    (P : Parts l m kind xs) (h : Buf .ump) (rest : List (Buf .ump)) :
    (¬ (keep = false ∧ EmptyEnd m) → receive1 keep l h (xs ++ rest) =
      (receive1 keep l [] rest >>= fun gs => pure ((l, m.1, xs.flatten) :: gs))) ∧
    (keep = false ∧ EmptyEnd m → receive1 keep l h (xs ++ rest) = receive1 keep l [] rest) := by
  obtain ⟨hs, hp, hl, he, hsh, hm, hd, -, -⟩ := P
  constructor
  · intro hn
    by_cases hE : EmptyEnd m
    · obtain ⟨h0, S⟩ := he hE
      have hk : keep = true := by
        cases keep with
        | true => rfl
        | false => exact absurd ⟨rfl, hE⟩ hn
      subst hk
      cases S with
      | one x _ => exact absurd rfl h0
      | many x mid z h1 h2 h3 =>
        have hf : (x :: (mid ++ [z])).flatten = x ++ mid.flatten ++ z := by simp
        rw [hf] at hm ⊢
        rw [List.cons_append, receive1_step (step1_start (hp x (by simp)) h1), bind_nil,
          List.append_assoc, receive1_mid (kind := kind) _ mid x fun y hy => ⟨hp y (by simp [hy]), h2 y hy⟩,
          List.cons_append, List.nil_append, receive1_step (step1_kept (hp z (by simp)) h3 hm)]
        rfl
    have S := hsh hE
    cases S with
    | one x h1 =>
      have hf : [x].flatten = x := by simp
      rw [hf] at hm ⊢
      rw [List.cons_append, List.nil_append, receive1_step (step1_complete (hp x (by simp)) h1 hm)]
      rfl
    | many x mid z h1 h2 h3 =>
      have hf : (x :: (mid ++ [z])).flatten = x ++ mid.flatten ++ z := by simp
      rw [hf] at hm ⊢
      rw [List.cons_append, receive1_step (step1_start (hp x (by simp)) h1), bind_nil,
        List.append_assoc, receive1_mid (kind := kind) _ mid x fun y hy => ⟨hp y (by simp [hy]), h2 y hy⟩,
        List.cons_append, List.nil_append, receive1_step (step1_end (hp z (by simp)) h3 hm)]
      rfl
  · intro hn
    obtain ⟨h0, S⟩ := he hn.2
    cases S with
    | one x _ => exact absurd rfl h0
    | many x mid z h1 h2 h3 =>
      rw [List.cons_append, receive1_step (step1_start (hp x (by simp)) h1), bind_nil,
        List.append_assoc, receive1_mid (kind := kind) _ mid x fun y hy => ⟨hp y (by simp [hy]), h2 y hy⟩,
        List.cons_append, List.nil_append, receive1_step (step1_lost hn.1 (hp z (by simp)) h3), bind_nil]

/-- Some packets of a message, but not the last. -/
theorem Parts.receive_front {keep : Bool} {l : Lane} {m : UmpKind × Buf .ump} {kind : PacketKind}
    {xs : List (Buf .ump)} (P : Parts l m kind xs) (h : Buf .ump) {d r : List (Buf .ump)}
    (hx : xs = d ++ r) (hr : r ≠ []) : receive1 keep l h d = .ok [] := by
  have key : ∀ e, Shape kind e xs → receive1 keep l h d = .ok [] := by
    intro e S
    have hp := P.packet
    cases S with
    | one x _ =>
      cases d with
      | nil => rfl
      | cons y d =>
        have := congrArg List.length hx
        have h2 := List.length_pos_iff.mpr hr
        simp only [List.length_cons, List.length_append, List.length_nil] at this
        omega
    | many x mid z h1 h2 h3 =>
      cases d with
      | nil => rfl
      | cons y d =>
        rw [List.cons_append] at hx
        obtain ⟨rfl, hx'⟩ := List.cons.inj hx
        have hdm : d <+: mid := by
          have e1 : d ++ r.dropLast ++ [r.getLast hr] = mid ++ [z] := by
            rw [List.append_assoc, List.dropLast_concat_getLast hr]; exact hx'.symm
          obtain ⟨e2, -⟩ := List.append_inj' e1 rfl
          exact ⟨_, e2⟩
        rw [receive1_step (step1_start (hp x (by simp)) h1), bind_nil]
        have := receive1_mid (keep := keep) (l := l) (kind := kind) [] d x fun y hy =>
          ⟨hp y (by simp [hdm.subset hy]), h2 y (hdm.subset hy)⟩
        rw [List.append_nil] at this
        rw [this]; rfl
  by_cases he : EmptyEnd m
  · exact key _ (P.early he).2
  · exact key _ (P.shape he)

theorem sendAll_cons {l : Lane} {m : UmpKind × Buf .ump} {S : List (UmpKind × Buf .ump)}
    {kind : PacketKind} {xs all : List (Buf .ump)} (P : Parts l m kind xs)
    (h : sendAll (m :: S) = .ok all) : ∃ all', sendAll S = .ok all' ∧ all = xs ++ all' := by
  unfold sendAll at h
  rw [P.send] at h
  have h : (sendAll S >>= fun qs => pure (xs ++ qs)) = .ok all := h
  cases hS : sendAll S with
  | ok q => rw [hS] at h; exact ⟨q, rfl, (Res.ok.inj h).symm⟩
  | err e => rw [hS] at h; cases h
  | panic => rw [hS] at h; cases h

theorem sendAll_lane {l : Lane} : ∀ {S : List (UmpKind × Buf .ump)} {all : List (Buf .ump)},
    (∀ m ∈ S, Sent l m) → sendAll S = .ok all → ∀ x ∈ all, laneAt x = l
  | [], all, _, h, x, hx => by cases h; cases hx
  | m :: S, all, hS, h, x, hx => by
    obtain ⟨kind, xs, P⟩ := parts_of_sent (hS m List.mem_cons_self)
    obtain ⟨all', h1, rfl⟩ := sendAll_cons P h
    rcases List.mem_append.mp hx with hx | hx
    · exact P.lane x hx
    · exact sendAll_lane (fun m hm => hS m (List.mem_cons_of_mem _ hm)) h1 x hx

theorem sendAll_ok {l : Lane} : ∀ {S : List (UmpKind × Buf .ump)}, (∀ m ∈ S, Sent l m) →
    ∃ all, sendAll S = .ok all
  | [], _ => ⟨_, rfl⟩
  | m :: S, hS => by
    obtain ⟨kind, xs, P⟩ := parts_of_sent (hS m List.mem_cons_self)
    obtain ⟨all, h⟩ := sendAll_ok fun m hm => hS m (List.mem_cons_of_mem _ hm)
    refine ⟨xs ++ all, ?_⟩
    unfold sendAll
    rw [P.send]
    show (sendAll S >>= _) = _
    rw [h]; rfl

/-- Everything that comes in on one lane. -/
theorem receive1_all {keep : Bool} {l : Lane} : ∀ {S : List (UmpKind × Buf .ump)} {all s r : List (Buf .ump)},
    (∀ m ∈ S, Sent l m) → sendAll S = .ok all → all = s ++ r → ∀ h : Buf .ump,
    ∃ t u out, S = t ++ u ∧ receive1 keep l h s = .ok out ∧ Received keep l t out ∧ Left u r
  | [], all, s, r, _, hall, hsr, h => by
    cases hall
    obtain ⟨rfl, rfl⟩ := List.append_eq_nil_iff.mp hsr.symm
    exact ⟨[], [], [], rfl, rfl, .nil, rfl⟩
  | m :: S, all, s, r, hS, hall, hsr, h => by
    obtain ⟨kind, xs, P⟩ := parts_of_sent (hS m List.mem_cons_self)
    obtain ⟨all', h1, rfl⟩ := sendAll_cons P hall
    rcases List.append_eq_append_iff.mp hsr with ⟨a, e1, e2⟩ | ⟨a, e1, e2⟩
    · -- all packets of the message have come in
      subst e1
      obtain ⟨t, u, out, g1, g2, g3, g4⟩ :=
        receive1_all (fun m hm => hS m (List.mem_cons_of_mem _ hm)) h1 e2 []
      obtain ⟨k1, k2⟩ := P.receive (keep := keep) h a
      by_cases he : keep = false ∧ EmptyEnd m
      · exact ⟨m :: t, u, out, by rw [g1]; rfl, by rw [k2 he]; exact g2, .lost he.1 he.2 g3, g4⟩
      · refine ⟨m :: t, u, (l, m.1, xs.flatten) :: out, by rw [g1]; rfl, ?_, .got he P.data g3, g4⟩
        rw [k1 he, g2]; rfl
    · by_cases ha : a = []
      · subst ha
        rw [List.append_nil] at e1
        subst e1
        obtain ⟨t, u, out, g1, g2, g3, g4⟩ :=
          receive1_all (s := []) (r := r) (fun m hm => hS m (List.mem_cons_of_mem _ hm)) h1 e2.symm []
        cases g2
        obtain ⟨k1, k2⟩ := P.receive (keep := keep) h []
        rw [List.append_nil] at k1 k2
        by_cases he : keep = false ∧ EmptyEnd m
        · exact ⟨m :: t, u, [], by rw [g1]; rfl, by rw [k2 he]; rfl, .lost he.1 he.2 g3, g4⟩
        · refine ⟨m :: t, u, [(l, m.1, xs.flatten)], by rw [g1]; rfl, ?_, .got he P.data g3, g4⟩
          rw [k1 he]; rfl
      · exact ⟨[], m :: S, [], rfl, P.receive_front h e1 ha, .nil, s, a, all', ha, by rw [P.send, e1],
          h1, e2⟩

theorem mixed_filter {A : Lane → Prop} {f f' : Lane → List (Buf .ump)} {s : List (Buf .ump)}
    (M : Mixed A f s f') : (∀ l, A l → ∀ x ∈ f l, laneAt x = l) → ∀ l, A l →
    f l = (s.filter fun x => decide (laneAt x = l)) ++ f' l := by
  induction M with
  | stop => intro _ l _; rfl
  | @next f s f' l0 x r hA hf _ ih =>
    intro hl l hA'
    have hx : laneAt x = l0 := hl l0 hA x (by rw [hf]; exact List.mem_cons_self)
    have ih := ih (fun l' hA'' y hy => by
      unfold put at hy
      split at hy
      · rename_i e
        subst e
        exact hl l' hA y (by rw [hf]; exact List.mem_cons_of_mem _ hy)
      · exact hl l' hA'' y hy) l hA'
    by_cases e : l = l0
    · subst e
      rw [List.filter_cons_of_pos (by simpa using hx), hf, List.cons_append, ← ih]
      unfold put
      rw [if_pos rfl]
    · rw [List.filter_cons_of_neg (by rw [hx]; simpa using fun h => e h.symm), ← ih]
      unfold put
      rw [if_neg e]
  | @other f s f' x hx _ ih =>
    intro hl l hA
    rw [List.filter_cons_of_neg (by
      simp only [decide_eq_true_eq]
      intro e
      exact hx (by rw [e]; exact hA))]
    exact ih hl l hA

end Midi2.Rx
