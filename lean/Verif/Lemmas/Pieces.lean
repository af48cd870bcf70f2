import Verif.Spec.Pieces
import Verif.Props.Packet
import Verif.Props.Follow

/-! # Lemmas: words that arrive in pieces -/

namespace Midi2

/-! ### Packets -/

theorem PacketKind.words_pos (k : PacketKind) : 0 < k.words := by cases k <;> decide

theorem PacketKind.least_le (k : PacketKind) : k.least ≤ k.words := by cases k <;> decide

theorem fieldAt_zero_ne {b : List (BitVec 32)} {p w n : Nat} (h : fieldAt b 0 p w = some n) :
    0 < b.length := by
  cases b with
  | nil => cases h
  | cons a t => exact Nat.succ_pos _

/-- Acceptance looks at the first word and the length. -/
theorem PacketKind.accepts_front {k : PacketKind} {b b' : List (BitVec 32)} (A : k.Accepts b)
    (h0 : ∀ p w, fieldAt b' 0 p w = fieldAt b 0 p w) (hl : k.least ≤ b'.length) : k.Accepts b' :=
  ⟨hl, by rw [h0]; exact A.type, by rw [h0]; exact A.status, by rw [h0]; exact A.size⟩

theorem PacketKind.Whole.pos {p : PacketKind × List (BitVec 32)} (W : PacketKind.Whole p) :
    0 < p.2.length := by
  rw [W.length]; exact p.1.words_pos

theorem PacketKind.Whole.tryFrom {p : PacketKind × List (BitVec 32)} (W : PacketKind.Whole p)
    (c : List (BitVec 32)) : Packet.tryFrom (p.2 ++ c) = .ok p := by
  have hp := W.pos
  have A : p.1.Accepts (p.2 ++ c) := PacketKind.accepts_front W.accepted
    (fun a w => fieldAt_left c hp a w)
    (by rw [List.length_append]; exact Nat.le_trans W.accepted.len (Nat.le_add_right _ _))
  rw [(C34_packet_accepts_exactly _).1 p.1 A, List.append_assoc, ← W.length, List.take_left]

theorem PacketKind.accepts_whole {k : PacketKind} {b : List (BitVec 32)} (A : k.Accepts b)
    (h : k.words ≤ b.length) : PacketKind.Whole (k, b.take k.words) := by
  have hl : (b.take k.words).length = k.words := by rw [List.length_take]; omega
  refine ⟨PacketKind.accepts_front A (fun p w => ?_) (by rw [hl]; exact k.least_le), hl⟩
  have hpos := k.words_pos
  have := fieldAt_left (m := b.take k.words) (b.drop k.words) (i := 0) (by rw [hl]; exact hpos) p w
  rw [List.take_append_drop] at this
  exact this.symm

theorem PacketKind.standard_words (k : PacketKind) : standardWords k.code = k.words := by
  cases k <;> rfl

theorem frontArrived_iff {b : List (BitVec 32)} {n : Nat} (h : fieldAt b 0 0 4 = some n) :
    frontArrived b = true ↔ standardWords n ≤ b.length := by
  cases b with
  | nil => cases h
  | cons w t =>
    rw [fieldAt_cons] at h
    cases h
    show decide (_ ≤ t.length + 1) = true ↔ _
    rw [decide_eq_true_iff, List.length_cons]

theorem frontArrived_pos {b : List (BitVec 32)} (h : frontArrived b = true) : 0 < b.length := by
  cases b with
  | nil => cases h
  | cons w t => exact Nat.succ_pos _

/-- Every stream has its packets. -/
theorem packetsOf_exists : ∀ (n : Nat) (b : List (BitVec 32)), b.length ≤ n →
    ∃ ps rest, PacketsOf b ps rest
  | n, b, hn => by
    by_cases h : ∃ p, PacketKind.Whole p ∧ p.2 <+: b
    · obtain ⟨p, W, c, rfl⟩ := h
      have := W.pos
      rw [List.length_append] at hn
      match n, hn with
      | 0, hn => omega
      | n + 1, hn =>
        obtain ⟨ps, rest, R⟩ := packetsOf_exists n c (by omega)
        refine ⟨p :: ps, rest, ?_, fun q hq => ?_, R.stop⟩
        · rw [List.map_cons, List.flatten_cons, List.append_assoc, ← R.words]
        · rcases List.mem_cons.mp hq with rfl | hq
          · exact W
          · exact R.whole q hq
    · exact ⟨[], b, rfl, (fun q hq => nomatch hq), fun p W hp => h ⟨p, W, hp⟩⟩

theorem PacketsOf.unique {b : List (BitVec 32)} : ∀ {ps : List (PacketKind × List (BitVec 32))}
    {rest ps' rest'}, PacketsOf b ps rest → PacketsOf b ps' rest' → ps = ps' ∧ rest = rest' := by
  have two : ∀ {p q : PacketKind × List (BitVec 32)} {c d}, PacketKind.Whole p →
      PacketKind.Whole q → p.2 ++ c = q.2 ++ d → p = q := by
    intro p q c d P Q h
    have h1 := P.tryFrom c
    rw [h, Q.tryFrom d] at h1
    exact (Res.ok.inj h1).symm
  intro ps
  induction ps generalizing b with
  | nil =>
    intro rest ps' rest' R R'
    cases ps' with
    | nil => exact ⟨rfl, R.words.symm.trans R'.words⟩
    | cons q ps' =>
      refine absurd ?_ (R.stop q (R'.whole q List.mem_cons_self))
      refine ⟨(ps'.map Prod.snd).flatten ++ rest', ?_⟩
      rw [← List.append_assoc]
      exact R'.words.symm.trans R.words
  | cons p ps ih =>
    intro rest ps' rest' R R'
    cases ps' with
    | nil =>
      refine absurd ?_ (R'.stop p (R.whole p List.mem_cons_self))
      refine ⟨(ps.map Prod.snd).flatten ++ rest, ?_⟩
      rw [← List.append_assoc]
      exact R.words.symm.trans R'.words
    | cons q ps' =>
      have h := R.words.symm.trans R'.words
      rw [List.map_cons, List.flatten_cons, List.map_cons, List.flatten_cons, List.append_assoc,
        List.append_assoc] at h
      have e := two (R.whole p List.mem_cons_self) (R'.whole q List.mem_cons_self) h
      subst e
      obtain ⟨e1, e2⟩ := ih (b := (ps.map Prod.snd).flatten ++ rest)
        ⟨rfl, fun q hq => R.whole q (List.mem_cons_of_mem _ hq), R.stop⟩
        ⟨List.append_cancel_left h, fun q hq => R'.whole q (List.mem_cons_of_mem _ hq), R'.stop⟩
      exact ⟨by rw [e1], e2⟩

theorem PacketsOf.trans {b c : List (BitVec 32)} {ps qs : List (PacketKind × List (BitVec 32))}
    {r s : List (BitVec 32)} (R : PacketsOf b ps r) (S : PacketsOf (r ++ c) qs s) :
    PacketsOf (b ++ c) (ps ++ qs) s := by
  refine ⟨?_, fun p hp => ?_, S.stop⟩
  · rw [R.words, List.append_assoc, S.words, List.map_append, List.flatten_append,
      List.append_assoc]
  · rcases List.mem_append.mp hp with h | h
    · exact R.whole p h
    · exact S.whole p h

theorem PacketsOf.nil : PacketsOf [] [] [] :=
  ⟨rfl, (fun q hq => nomatch hq), fun p W hp => by
    have := W.pos
    have := hp.length_le
    rw [List.length_nil] at this
    omega⟩

/-- The loop follows the packets, whatever it does with the rest. -/
theorem takePackets_of {careful : Bool} {x : Res (List (PacketKind × List (BitVec 32)) × List (BitVec 32))}
    {rest : List (BitVec 32)} (hrest : ∀ n, rest.length ≤ n → takePackets careful n rest = x) :
    ∀ (ps : List (PacketKind × List (BitVec 32))) (n : Nat), (∀ p ∈ ps, PacketKind.Whole p) →
      ((ps.map Prod.snd).flatten ++ rest).length ≤ n →
      takePackets careful n ((ps.map Prod.snd).flatten ++ rest) =
        x >>= fun y => .ok (ps ++ y.1, y.2)
  | [], n, _, hn => by
    show takePackets careful n rest = _
    rw [hrest n hn]
    cases x <;> rfl
  | p :: ps, n, hw, hn => by
    have W := hw p List.mem_cons_self
    have hp := W.pos
    rw [List.map_cons, List.flatten_cons, List.append_assoc] at hn ⊢
    rw [List.length_append] at hn
    obtain ⟨n, rfl⟩ : ∃ m, n = m + 1 := ⟨n - 1, by omega⟩
    have hf : frontArrived (p.2 ++ ((ps.map Prod.snd).flatten ++ rest)) = true := by
      rw [frontArrived_iff (n := p.1.code) (by rw [fieldAt_left _ hp]; exact W.accepted.type),
        PacketKind.standard_words, List.length_append, W.length]
      omega
    unfold takePackets
    rw [hf, Bool.not_true, Bool.and_false, if_neg Bool.false_ne_true, W.tryFrom]
    show takePackets careful n (List.drop p.2.length _) >>= _ = _
    rw [List.drop_left, takePackets_of hrest ps n (fun q hq => hw q (List.mem_cons_of_mem _ hq))
      (by omega)]
    cases x <;> rfl

theorem takePackets_careful {b : List (BitVec 32)} {ps : List (PacketKind × List (BitVec 32))}
    {rest : List (BitVec 32)} (R : PacketsOf b ps rest) {n : Nat} (hn : b.length ≤ n) :
    takePackets true n b = .ok (ps, rest) := by
  rw [R.words] at hn ⊢
  rw [takePackets_of (x := .ok ([], rest)) (fun m hm => ?_) ps n R.whole hn]
  · rw [Res.ok_bind, List.append_nil]
  · cases m with
    | zero => rfl
    | succ m =>
      unfold takePackets
      cases hf : frontArrived rest with
      | false => rfl
      | true =>
        have : ∀ k : PacketKind, ¬ k.Accepts rest := fun k A => by
          have := (frontArrived_iff A.type).mp hf
          rw [k.standard_words] at this
          exact R.stop _ (k.accepts_whole A this) (List.take_prefix _ _)
        rw [(C34_packet_accepts_exactly rest).2 this]
        rfl

/-- Words are torn if the parser accepts them although some are missing. -/
theorem PacketKind.torn_iff {k : PacketKind} {r : List (BitVec 32)} :
    k.Torn r ↔ k.Accepts r ∧ r.length < k.words := by
  constructor
  · intro T
    have hp := fieldAt_zero_ne T.type
    refine ⟨⟨?_, T.type, ?_, ?_⟩, T.short⟩
    · rcases T.kind with h | h | h <;> subst h
      · exact hp
      · exact T.long rfl
      · exact hp
    · rcases T.kind with h | h | h <;> subst h <;> intro h <;> rcases h with h | h <;> cases h
    · rcases T.kind with h | h | h <;> subst h <;> intro h <;> cases h
  · rintro ⟨A, hs⟩
    have hl := A.len
    have hp := fieldAt_zero_ne A.type
    refine ⟨?_, A.type, fun h => by subst h; exact hl, hs⟩
    cases k with
    | channelVoice2 => exact .inl rfl
    | flexData => exact .inr (.inl rfl)
    | umpStream => exact .inr (.inr rfl)
    | sysex7 => exact absurd hs (Nat.not_lt.mpr hl)
    | sysex8 => exact absurd hs (Nat.not_lt.mpr hl)
    | utility => exact absurd hs (Nat.not_lt.mpr hl)
    | systemCommon => exact absurd hs (Nat.not_lt.mpr hl)
    | channelVoice1 => exact absurd hs (Nat.not_lt.mpr hl)

theorem takePackets_greedy {b : List (BitVec 32)} {ps : List (PacketKind × List (BitVec 32))}
    {rest : List (BitVec 32)} (R : PacketsOf b ps rest) {n : Nat} (hn : b.length ≤ n) :
    ((∀ k : PacketKind, ¬ k.Torn rest) → takePackets false n b = .ok (ps, rest)) ∧
    ∀ k : PacketKind, k.Torn rest → takePackets false n b =
      .ok (ps ++ [(k, rest ++ List.replicate (k.words - rest.length) 0)], []) := by
  rw [R.words] at hn ⊢
  constructor
  · intro h
    rw [takePackets_of (x := .ok ([], rest)) (fun m hm => ?_) ps n R.whole hn]
    · rw [Res.ok_bind, List.append_nil]
    · cases m with
      | zero => rfl
      | succ m =>
        unfold takePackets
        have : ∀ k : PacketKind, ¬ k.Accepts rest := fun k A => by
          by_cases hs : rest.length < k.words
          · exact h k (PacketKind.torn_iff.mpr ⟨A, hs⟩)
          · exact R.stop _ (k.accepts_whole A (by omega)) (List.take_prefix _ _)
        rw [(C34_packet_accepts_exactly rest).2 this]
        rfl
  · intro k T
    have hp := fieldAt_zero_ne T.type
    obtain ⟨A, hs⟩ := PacketKind.torn_iff.mp T
    have e : (rest ++ List.replicate k.words 0).take k.words =
        rest ++ List.replicate (k.words - rest.length) 0 := by
      rw [List.take_append, List.take_of_length_le (by omega), List.take_replicate]
      congr 2
      omega
    have hl : (rest ++ List.replicate (k.words - rest.length) (0 : BitVec 32)).length = k.words := by
      rw [List.length_append, List.length_replicate]; omega
    rw [takePackets_of (x := .ok ([(k, rest ++ List.replicate (k.words - rest.length) 0)], []))
      (fun m hm => ?_) ps n R.whole hn]
    · rfl
    · obtain ⟨m, rfl⟩ : ∃ j, m = j + 1 := ⟨m - 1, by omega⟩
      unfold takePackets
      rw [(C34_packet_accepts_exactly rest).1 k A, e]
      show takePackets false m (List.drop (List.length _) rest) >>= _ = _
      rw [hl, List.drop_of_length_le (by omega)]
      have : takePackets false m [] = .ok ([], []) := by cases m <;> rfl
      rw [this]
      rfl

theorem readPackets_append {careful : Bool} : ∀ (ps qs : List (List (BitVec 32)))
    (r : List (BitVec 32)), readPackets careful (ps ++ qs) r =
      readPackets careful ps r >>= fun x => readPackets careful qs x.2 >>= fun y =>
        .ok (x.1 ++ y.1, y.2)
  | [], qs, r => by
    show readPackets careful qs r = readPackets careful qs r >>= fun y => .ok ([] ++ y.1, y.2)
    cases readPackets careful qs r <;> rfl
  | p :: ps, qs, r => by
    have h : ∀ ts, readPackets careful (p :: ts) r = takePackets careful (r ++ p).length (r ++ p) >>=
      fun x => readPackets careful ts x.2 >>= fun y => .ok (x.1 :: y.1, y.2) := fun _ => rfl
    rw [List.cons_append, h, h]
    cases takePackets careful (r ++ p).length (r ++ p) with
    | err e => rfl
    | panic => rfl
    | ok x =>
      rw [Res.ok_bind, Res.ok_bind, readPackets_append ps qs]
      cases readPackets careful ps x.2 with
      | err e => rfl
      | panic => rfl
      | ok y =>
        rw [Res.ok_bind, Res.ok_bind, Res.ok_bind]
        cases readPackets careful qs y.2 <;> rfl

theorem readPackets_one (careful : Bool) (p r : List (BitVec 32)) :
    readPackets careful [p] r = takePackets careful (r ++ p).length (r ++ p) >>= fun x =>
      .ok ([x.1], x.2) := by
  show takePackets careful (r ++ p).length (r ++ p) >>= (fun x => Res.ok (x.1 :: [], x.2)) = _
  rfl

end Midi2
