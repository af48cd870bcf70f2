import Verif.Spec.Follow
import Verif.Props.Truncated

/-!
# Lemmas: parsing a complete message with words behind it
-/

namespace Midi2

theorem fieldAt_left {m : List (BitVec 32)} (c : List (BitVec 32)) {i : Nat} (h : i < m.length)
    (p w : Nat) : fieldAt (m ++ c) i p w = fieldAt m i p w := by
  unfold fieldAt
  rw [List.getElem?_append_left h]

theorem fieldAt_right (m c : List (BitVec 32)) (i p w : Nat) :
    fieldAt (m ++ c) (m.length + i) p w = fieldAt c i p w := by
  unfold fieldAt
  rw [List.getElem?_append_right (by omega), Nat.add_sub_cancel_left]

theorem packetHeads_append {k n : Nat} (hk : 0 < k) {m : List (BitVec 32)} (hm : m.length = k * n)
    (c : List (BitVec 32)) : packetHeads k (m ++ c) = packetHeads k m ++ packetHeads k c := by
  have hl : (packetHeads k m).length = n := by
    unfold packetHeads
    rw [List.length_map, List.length_range, hm, show k * n + k - 1 = k - 1 + k * n by omega,
      Nat.add_mul_div_left _ _ hk, Nat.div_eq_of_lt (by omega), Nat.zero_add]
  apply List.ext_getElem?
  intro j
  rw [Sx.packetHeads_getElem? _ _ hk]
  by_cases h : j < n
  · have : k * j < k * n := Nat.mul_lt_mul_of_pos_left h hk
    rw [List.getElem?_append_left (by omega), List.getElem?_append_left (by omega),
      Sx.packetHeads_getElem? _ _ hk]
  · have : k * n ≤ k * j := Nat.mul_le_mul_left _ (by omega)
    rw [List.getElem?_append_right (by omega), List.getElem?_append_right (by omega),
      Sx.packetHeads_getElem? _ _ hk, hl, Nat.mul_sub, hm]

/-- A message in complete packets of its type, with anything behind it. -/
theorem typedRun_append {k : Nat} (hk : 0 < k) {ty : BitVec 4} {m : Buf .ump}
    (hm : m.length = k * (typedRun k ty m).length) (c : Buf .ump) :
    typedRun k ty (m ++ c) = typedRun k ty m ++ typedRun k ty c := by
  have hall : typedRun k ty m = packetHeads k m := by
    have hpre : typedRun k ty m <+: packetHeads k m := List.takeWhile_prefix _
    refine hpre.eq_of_length ?_
    refine Nat.le_antisymm hpre.length_le ?_
    unfold packetHeads
    rw [List.length_map, List.length_range]
    refine Nat.le_of_lt_succ ((Nat.div_lt_iff_lt_mul hk).mpr ?_)
    rw [Nat.succ_mul, Nat.mul_comm]; omega
  have hp : ∀ w ∈ packetHeads k m, decide (field w 0 4 = ty.toNat) = true := by
    intro w hw
    rw [← hall] at hw
    exact List.all_eq_true.mp List.all_takeWhile w hw
  rw [hall]
  unfold typedRun
  rw [packetHeads_append hk hm, List.takeWhile_append_of_pos hp]

theorem typedRun_nil {k : Nat} (hk : 0 < k) {ty : BitVec 4} {c : Buf .ump} :
    typedRun k ty c = [] ↔ fieldAt c 0 0 4 ≠ some ty.toNat := by
  have h0 := Sx.packetHeads_getElem? k c hk 0
  rw [Nat.mul_zero] at h0
  unfold typedRun fieldAt
  rw [← h0]
  cases packetHeads k c with
  | nil => simp
  | cons w ws =>
    rw [List.takeWhile_cons]
    simp

/-- A message cannot be continued behind its last packet. -/
theorem seqOk_append {fs gs : List Nat} (h : SeqOk fs) : SeqOk (fs ++ gs) ↔ gs = [] := by
  constructor
  · intro h'
    obtain ⟨h1, h2⟩ := (seqOk_iff _).mp h
    obtain ⟨_, h4⟩ := (seqOk_iff _).mp h'
    have hp : 0 < fs.length := List.length_pos_iff.mpr h1
    have e : fs[fs.length - 1]? = some fs[fs.length - 1] := List.getElem?_eq_getElem (by omega)
    have a := h2 _ _ e
    have b := h4 (fs.length - 1) _ (by rw [List.getElem?_append_left (by omega)]; exact e)
    rw [a] at b
    refine List.length_eq_zero_iff.mp (Nat.eq_zero_of_not_pos fun hg => ?_)
    rw [List.length_append] at b
    unfold statusCode at b
    split at b <;> split at b <;> (try split at b) <;> (try split at b) <;> (try split at b) <;> omega
  · rintro rfl
    rw [List.append_nil]; exact h

/-- Alignment of the words behind a message in packets of `k` words. -/
theorem behind {k n : Nat} {m c : List (BitVec 32)} (hm : m.length = k * n) (P : Nat → Prop)
    (j : Nat) (h : k * (j + 1) ≤ (m ++ c).length) (h1 : k * (j + 1) ≤ m.length → P j)
    (h2 : ∀ i, j = n + i → k * (i + 1) ≤ c.length → P (n + i)) : P j := by
  rw [List.length_append] at h
  by_cases hj : j < n
  · exact h1 (by rw [hm]; exact Nat.mul_le_mul_left _ hj)
  · obtain ⟨i, rfl⟩ : ∃ i, j = n + i := ⟨j - n, by omega⟩
    refine h2 i rfl ?_
    rw [Nat.add_assoc, Nat.mul_add] at h
    omega

theorem Sx.accepts_append {k : Sx} {m : Buf .ump} (A : k.layout.Accepts m)
    (hm : m.length = k.layout.words * (k.layout.run m).length) (c : Buf .ump) :
    k.layout.Accepts (m ++ c) ↔ UmpKind.Allows m c (.sysex k) := by
  have hk : 0 < k.layout.words := by rw [words_eq]; exact k.stride_pos
  have hr : k.layout.run (m ++ c) = k.layout.run m ++ k.layout.run c := by
    rw [k.run_typed, k.run_typed, k.run_typed]
    refine typedRun_append k.stride_pos ?_ c
    rw [← k.run_typed, ← words_eq]; exact hm
  have hn : k.layout.run c = [] ↔ fieldAt c 0 0 4 ≠ some k.layout.type := by
    rw [k.run_typed, typedRun_nil k.stride_pos]
    cases k <;> exact Iff.rfl
  have hcol : ∀ j p w, j < (k.layout.run m).length →
      fieldAt (m ++ c) (k.layout.words * j) p w = fieldAt m (k.layout.words * j) p w := by
    intro j p w hj
    refine fieldAt_left c ?_ p w
    rw [hm]; exact Nat.mul_lt_mul_of_pos_left hj hk
  have hpos : 0 < (k.layout.run m).length := by
    refine Nat.pos_of_ne_zero fun e => ?_
    have := A.len
    rw [e] at hm; omega
  have h0 : ∀ p w, fieldAt (m ++ c) 0 p w = fieldAt m 0 p w := by
    intro p w
    have := hcol 0 p w hpos
    rwa [Nat.mul_zero] at this
  have hcr : ∀ i p w, fieldAt (m ++ c) (k.layout.words * ((k.layout.run m).length + i)) p w =
      fieldAt c (k.layout.words * i) p w := by
    intro i p w
    rw [Nat.mul_add, ← hm, fieldAt_right]
  have hle : ∀ j, j < (k.layout.run m).length → k.layout.words * (j + 1) ≤ m.length := by
    intro j hj
    rw [hm]; exact Nat.mul_le_mul_left _ hj
  constructor
  · intro B
    have hb := B.statuses
    rw [hr, List.map_append, seqOk_append A.statuses, List.map_eq_nil_iff, hn] at hb
    refine ⟨hb, fun j hj => ?_⟩
    have := B.sizes ((k.layout.run m).length + j) (by
      rw [List.length_append, Nat.add_assoc, Nat.mul_add, ← hm]; omega)
    rw [hcr] at this
    exact this
  · rintro ⟨h1, h2⟩
    have hrun : k.layout.run (m ++ c) = k.layout.run m := by
      rw [hr, hn.mpr h1, List.append_nil]
    refine ⟨?_, ?_, ?_, ?_, ?_⟩
    · rw [List.length_append]; have := A.len; omega
    · rw [hrun]; exact A.statuses
    · intro j hj
      refine behind hm (P := fun j => ∃ s, fieldAt (m ++ c) (k.layout.words * j) 12 4 = some s ∧
        k.layout.extra ≤ s ∧ s ≤ k.layout.capacity + k.layout.extra) j hj ?_ ?_
      · intro h
        have hj' : j < (k.layout.run m).length := by
          refine Nat.lt_of_not_le fun hh => ?_
          have := Nat.mul_le_mul_left k.layout.words (Nat.succ_le_succ hh)
          rw [hm] at h
          simp only [Nat.succ_eq_add_one, Nat.mul_succ] at this h
          omega
        rw [hcol j _ _ hj']
        exact A.sizes j h
      · intro i _ h
        rw [hcr]
        exact h2 i h
    · intro j hj _
      rw [hrun] at hj
      rw [hcol j _ _ hj, h0]
      exact A.groups j hj (hle j hj)
    · intro he j hj _
      rw [hrun] at hj
      rw [hcol j _ _ hj, h0]
      exact A.streams he j hj (hle j hj)

theorem FlexText.accepts_append {t : FlexText} {m : Buf .ump} (A : t.Accepts m)
    (hm : m.length = 4 * (FlexText.run m).length) (c : Buf .ump) :
    t.Accepts (m ++ c) ↔ UmpKind.Allows m c (.flexText t) := by
  have hr : FlexText.run (m ++ c) = FlexText.run m ++ FlexText.run c :=
    typedRun_append (k := 4) (ty := 0xD) (by omega) hm c
  have hn : FlexText.run c = [] ↔ fieldAt c 0 0 4 ≠ some 13 :=
    typedRun_nil (k := 4) (ty := 0xD) (by omega)
  have hlen := A.len
  have h0 : ∀ p w, fieldAt (m ++ c) 0 p w = fieldAt m 0 p w :=
    fun p w => fieldAt_left c (by omega) p w
  have b0 := A.banks 0 (by omega)
  have s0 := A.statuses 0 (by omega)
  rw [Nat.mul_zero] at b0 s0
  have hl : 4 ≤ (m ++ c).length := by rw [List.length_append]; omega
  constructor
  · intro B
    have hb := B.formats
    rw [hr, List.map_append, seqOk_append A.formats, List.map_eq_nil_iff, hn] at hb
    refine ⟨hb, fun j hj => ?_, fun j hj => ?_, B.text⟩
    · rw [B.banks j hj, h0, b0]
    · rw [B.statuses j hj, h0, s0]
  · rintro ⟨h1, h2, h3, h4⟩
    have hrun : FlexText.run (m ++ c) = FlexText.run m := by rw [hr, hn.mpr h1, List.append_nil]
    refine ⟨hl, by rw [hrun]; exact A.formats, ?_, ?_, ?_, h4⟩
    · intro j hj _
      rw [hrun] at hj
      rw [fieldAt_left c (by omega), h0]
      exact A.groups j hj (by omega)
    · intro j hj; rw [h2 j hj, h0, b0]
    · intro j hj; rw [h3 j hj, h0, s0]

theorem StreamText.accepts_append {t : StreamText} {m : Buf .ump} (A : t.Accepts m)
    (hm : m.length = 4 * (StreamText.run m).length) (c : Buf .ump) :
    t.Accepts (m ++ c) ↔ UmpKind.Allows m c (.streamText t) := by
  have hr : StreamText.run (m ++ c) = StreamText.run m ++ StreamText.run c :=
    typedRun_append (k := 4) (ty := 0xF) (by omega) hm c
  have hn : StreamText.run c = [] ↔ fieldAt c 0 0 4 ≠ some 15 :=
    typedRun_nil (k := 4) (ty := 0xF) (by omega)
  have hlen := A.len
  have h0 : ∀ p w, fieldAt (m ++ c) 0 p w = fieldAt m 0 p w :=
    fun p w => fieldAt_left c (by omega) p w
  have s0 := A.statuses 0 (by omega)
  rw [Nat.mul_zero] at s0
  have hl : 4 ≤ (m ++ c).length := by rw [List.length_append]; omega
  constructor
  · intro B
    have hb := B.formats
    rw [hr, List.map_append, seqOk_append A.formats, List.map_eq_nil_iff, hn] at hb
    refine ⟨hb, fun j hj => ?_, fun ho j hj => B.blocks ho j hj, B.text⟩
    rw [B.statuses j hj, h0, s0]
  · rintro ⟨h1, h2, h3, h4⟩
    have hrun : StreamText.run (m ++ c) = StreamText.run m := by
      rw [hr, hn.mpr h1, List.append_nil]
    refine ⟨hl, by rw [hrun]; exact A.formats, ?_, h3, h4⟩
    intro j hj; rw [h2 j hj, h0, s0]

/-! ### Fixed-size messages -/

theorem tryFrom_wf {d : MsgDesc} (hd : d ∈ Msg.all) (b : Buf .ump) :
    d.tryFrom .ump b = .ok b ↔ d.WellFormed .ump b := by
  refine ⟨fun h => ?_, (C07_ump_accepts_exactly hd b).1⟩
  by_cases hw : d.WellFormed .ump b
  · exact hw
  · rw [(C07_ump_accepts_exactly hd b).2 hw] at h; cases h

/-- Which properties look behind the message: 1, 2 for those of flex data, 3, 4 for those of
stream messages. -/
def Fld.behind : Fld → Nat
  | .flexStatus _ => 1
  | .flexBank _ => 2
  | .streamStatus _ => 3
  | .streamFormats => 4
  | _ => 0

/-- The same for all properties of a message. -/
def MsgDesc.looksBehind (flex stream : Bool) (d : MsgDesc) : Bool :=
  (!flex || ((d.props.any fun p => p.2.behind == 1) && (d.props.any fun p => p.2.behind == 2))) &&
  (!stream || ((d.props.any fun p => p.2.behind == 3) && (d.props.any fun p => p.2.behind == 4))) &&
  (d.props.all fun p => p.2.behind == 0 || (p.2.behind ≤ 2 && flex) || (2 < p.2.behind && stream)) &&
  (!flex || d.umpSize == 4)

theorem MsgDesc.looksBehind_spec {flex stream : Bool} {d : MsgDesc}
    (h : d.looksBehind flex stream = true) :
    (flex = true → (∃ p ∈ d.props, ∃ s, p.2 = .flexStatus s) ∧
      ∃ p ∈ d.props, ∃ s, p.2 = .flexBank s) ∧
    (stream = true → (∃ p ∈ d.props, ∃ s, p.2 = .streamStatus s) ∧
      ∃ p ∈ d.props, p.2 = .streamFormats) ∧
    (∀ p ∈ d.props, p.2.ranging = true →
      ((∃ s, p.2 = .flexStatus s ∨ p.2 = .flexBank s) ∧ flex = true) ∨
      (((∃ s, p.2 = .streamStatus s) ∨ p.2 = .streamFormats) ∧ stream = true)) ∧
    (flex = true → d.umpSize = 4) := by
  simp only [looksBehind, Bool.and_eq_true, Bool.or_eq_true, Bool.not_eq_true',
    List.any_eq_true, List.all_eq_true, beq_iff_eq, decide_eq_true_eq] at h
  obtain ⟨⟨⟨h1, h2⟩, h3⟩, h4⟩ := h
  have no : ∀ {x : Bool}, x = true → ¬ x = false := fun h e => by rw [h] at e; cases e
  refine ⟨fun hf => ?_, fun hf => ?_, fun p hp hr => ?_, fun hf => h4.resolve_left (no hf)⟩
  · obtain ⟨⟨p, hp, e⟩, q, hq, e'⟩ := h1.resolve_left (no hf)
    refine ⟨⟨p, hp, ?_⟩, q, hq, ?_⟩
    · generalize p.2 = f at e; cases f <;> first | exact ⟨_, rfl⟩ | cases e
    · generalize q.2 = f at e'; cases f <;> first | exact ⟨_, rfl⟩ | cases e'
  · obtain ⟨⟨p, hp, e⟩, q, hq, e'⟩ := h2.resolve_left (no hf)
    refine ⟨⟨p, hp, ?_⟩, q, hq, ?_⟩
    · generalize p.2 = f at e; cases f <;> first | exact ⟨_, rfl⟩ | cases e
    · generalize q.2 = f at e'; cases f <;> first | rfl | cases e'
  · have h3 := h3 p hp
    generalize p.2 = f at h3 hr
    cases f with
    | flexStatus s =>
      refine .inl ⟨⟨s, .inl rfl⟩, ?_⟩
      rcases h3 with (h | h) | h
      · exact absurd h (show ¬ (1 : Nat) = 0 by decide)
      · exact h.2
      · exact absurd h.1 (show ¬ (2 : Nat) < 1 by decide)
    | flexBank s =>
      refine .inl ⟨⟨s, .inr rfl⟩, ?_⟩
      rcases h3 with (h | h) | h
      · exact absurd h (show ¬ (2 : Nat) = 0 by decide)
      · exact h.2
      · exact absurd h.1 (show ¬ (2 : Nat) < 2 by decide)
    | streamStatus s =>
      refine .inr ⟨.inl ⟨s, rfl⟩, ?_⟩
      rcases h3 with (h | h) | h
      · exact absurd h (show ¬ (3 : Nat) = 0 by decide)
      · exact absurd h.1 (show ¬ (3 : Nat) ≤ 2 by decide)
      · exact h.2
    | streamFormats =>
      refine .inr ⟨.inr rfl, ?_⟩
      rcases h3 with (h | h) | h
      · exact absurd h (show ¬ (4 : Nat) = 0 by decide)
      · exact absurd h.1 (show ¬ (4 : Nat) ≤ 2 by decide)
      · exact h.2
    | _ => cases hr

theorem follow_table : (Msg.all.all fun d =>
    d.looksBehind (decide (d ∈ Msg.flexAll)) (decide (d ∈ Msg.streamAll))) = true := by
  decide +kernel

theorem packetHeads_four {b : List (BitVec 32)} (hb : 0 < b.length) :
    packetHeads 4 b = b[0] :: packetHeads 4 (b.drop 4) := by
  apply List.ext_getElem?
  intro j
  rw [Sx.packetHeads_getElem? _ _ (by omega)]
  cases j with
  | zero => rw [Nat.mul_zero, List.getElem?_eq_getElem hb]; rfl
  | succ j =>
    rw [List.getElem?_cons_succ, Sx.packetHeads_getElem? _ _ (by omega), List.getElem?_drop]
    congr 1; omega

/-- The formats of a stream message in one packet. -/
theorem formats_one {b : List (BitVec 32)} (hb : 0 < b.length) (ht : fieldAt b 0 0 4 = some 15)
    (hf : fieldAt b 0 4 2 = some 0) :
    Fld.streamFormats.Legal b ↔ fieldAt b 4 0 4 ≠ some 15 := by
  have e : ∀ p w, fieldAt b 0 p w = some (field b[0] p w) := fieldAt_ok hb
  rw [e] at ht hf
  have ht := Option.some.inj ht
  have hf := Option.some.inj hf
  show SeqOk (((packetHeads 4 b).takeWhile (fun w => decide (field w 0 4 = 15))).map _) ↔ _
  rw [packetHeads_four hb, List.takeWhile_cons_of_pos (by simp [ht]), List.map_cons, hf]
  rw [show (0 :: List.map (fun w => field w 4 2)
      (List.takeWhile (fun w => decide (field w 0 4 = 15)) (packetHeads 4 (b.drop 4)))) =
    [0] ++ List.map (fun w => field w 4 2)
      (List.takeWhile (fun w => decide (field w 0 4 = 15)) (packetHeads 4 (b.drop 4))) from rfl,
    seqOk_append (.inl rfl), List.map_eq_nil_iff]
  have := typedRun_nil (k := 4) (ty := 0xF) (c := b.drop 4) (by omega)
  refine this.trans ?_
  unfold fieldAt
  rw [List.getElem?_drop]
  exact Iff.rfl

theorem fixed_append {d : MsgDesc} (hd : d ∈ Msg.all) {m : Buf .ump} (hm : m.length = d.umpSize)
    (hok : d.tryFrom .ump m = .ok m)
    (hst : ∀ p ∈ d.props, ∀ s, p.2 = .streamStatus s → fieldAt m 0 6 10 = some s.toNat)
    (c : Buf .ump) :
    d.tryFrom .ump (m ++ c) = .ok (m ++ c) ↔ UmpKind.Allows m c (.fixed d) := by
  have hsz : ∀ d ∈ Msg.all, 0 < d.umpSize ∧ d.umpSize ≤ 4 := by decide +kernel
  obtain ⟨hsz0, hsz4⟩ := hsz d hd
  obtain ⟨t1, t2, t3, t4⟩ := MsgDesc.looksBehind_spec (List.all_eq_true.mp follow_table d hd)
  obtain ⟨_, W⟩ := (tryFrom_wf hd m).mp hok
  have hfit := List.all_eq_true.mp table_ump_fits d hd
  have hl : 0 < (m ++ c).length := by rw [List.length_append]; omega
  have h0 : ∀ p w, fieldAt (m ++ c) 0 p w = fieldAt m 0 p w :=
    fun p w => fieldAt_left c (by omega) p w
  -- one packet, complete
  have hone : ∀ p ∈ d.props, p.2 = .streamFormats →
      fieldAt m 0 0 4 = some 15 ∧ fieldAt m 0 4 2 = some 0 := by
    intro p hp e
    have := W p hp
    rw [e] at this
    have hty : fieldAt m 0 0 4 = some 15 := head_of_run (by omega) this
    refine ⟨hty, ?_⟩
    have hm0 : 0 < m.length := by omega
    have this : SeqOk (((packetHeads 4 m).takeWhile (fun w => decide (field w 0 4 = 15))).map
      (fun w => field w 4 2)) := this
    rw [fieldAt_ok hm0] at hty ⊢
    have hty := Option.some.inj hty
    rw [packetHeads_four hm0, List.drop_of_length_le (by omega),
      List.takeWhile_cons_of_pos (by simp [hty])] at this
    rcases this with h | ⟨n, h⟩
    · exact congrArg some (List.cons.inj h).1
    · have := congrArg List.length h
      simp [packetHeads] at this
  rw [tryFrom_wf hd]
  constructor
  · rintro ⟨_, B⟩
    refine ⟨fun hf => ?_, fun hs => ?_⟩
    · obtain ⟨⟨p, hp, s, e⟩, q, hq, s', e'⟩ := t1 (decide_eq_true hf)
      have h4 := t4 (decide_eq_true hf)
      have bp := B p hp
      have bq := B q hq
      rw [e] at bp; rw [e'] at bq
      refine ⟨fun j hj => ?_, fun j hj => ?_⟩
      · have a1 := bq j hj
        have a2 := bq 0 (by rw [List.length_append]; omega)
        rw [Nat.mul_zero] at a2
        rw [a1, a2]
      · have a1 := bp j hj
        have a2 := bp 0 (by rw [List.length_append]; omega)
        rw [Nat.mul_zero] at a2
        rw [a1, a2]
    · obtain ⟨⟨p, hp, s, e⟩, q, hq, e'⟩ := t2 (decide_eq_true hs)
      have bp := B p hp
      have bq := B q hq
      rw [e] at bp; rw [e'] at bq
      obtain ⟨f1, f2⟩ := hone q hq e'
      refine ⟨(formats_one hl (by rw [h0]; exact f1) (by rw [h0]; exact f2)).mp bq,
        fun j hj => ?_⟩
      rw [bp j hj, h0, hst p hp s e]
  · rintro ⟨hF, hS⟩
    refine ⟨by rw [List.length_append]; omega, fun p hp => ?_⟩
    by_cases hr : p.2.ranging = true
    · rcases t3 p hp hr with ⟨⟨s, e⟩, hx⟩ | ⟨e, hx⟩
      · have h4 := t4 hx
        obtain ⟨f1, f2⟩ := hF (of_decide_eq_true hx)
        have w := W p hp
        rcases e with e | e
        · rw [e] at w ⊢
          intro j hj
          rw [f2 j hj, h0]
          have := w 0 (by omega)
          rwa [Nat.mul_zero] at this
        · rw [e] at w ⊢
          intro j hj
          rw [f1 j hj, h0]
          have := w 0 (by omega)
          rwa [Nat.mul_zero] at this
      · obtain ⟨f1, f2⟩ := hS (of_decide_eq_true hx)
        rcases e with ⟨s, e⟩ | e
        · rw [e]
          intro j hj
          rw [f2 j hj, h0, hst p hp s e]
        · obtain ⟨a1, a2⟩ := hone p hp e
          rw [e]
          exact (formats_one hl (by rw [h0]; exact a1) (by rw [h0]; exact a2)).mpr f1
    · have hr : p.2.ranging = false := by simpa using hr
      have hpf := MsgDesc.fits_mem hfit (show (p.1, p.2) ∈ d.props from hp)
      have hv := Fld.validate_append (b := m) hpf (fun _ => hr) (by omega) c
      simp only [Fld.fits, Bool.and_eq_true, decide_eq_true_eq] at hpf
      have i1 := (Fld.validate32_iff p.2 hpf.1 (b := m) (by omega)).1
      have i2 := (Fld.validate32_iff p.2 hpf.1 (b := m ++ c)
        (by rw [List.length_append]; omega)).1
      refine i2.mp ?_
      have := i1.mpr (W p hp)
      rw [← this]
      exact hv

end Midi2
