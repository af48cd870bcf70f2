import Verif.Spec.Packet
import Verif.Props.Streams

/-!
# Lemmas about packets
-/

namespace Midi2

namespace Packet

theorem padded_eq (n : Nat) (d : Buf .ump) :
    padded n d = (d ++ List.replicate n 0).take n := by
  unfold padded
  rw [List.take_append, List.take_replicate]
  rcases Nat.le_total n d.length with h | h
  · rw [Nat.min_eq_left h, Nat.sub_self, Nat.sub_eq_zero_of_le h, Nat.zero_min]
  · rw [Nat.min_eq_right h, List.take_of_length_le (Nat.le_refl _), List.take_of_length_le h,
      Nat.min_eq_left (Nat.sub_le _ _)]

theorem bne_toNat {n : Nat} (x y : BitVec n) : (x != y) = decide (x.toNat ≠ y.toNat) := by
  unfold bne; rw [beq_toNat]; by_cases h : x.toNat = y.toNat <;> simp [h]

theorem status_nibble (w : BitVec 32) : (U32.nibble w 2).toNat = field w 8 4 :=
  nibble_field w (i := 2) (by decide)
theorem size_nibble (w : BitVec 32) : (U32.nibble w 3).toNat = field w 12 4 :=
  nibble_field w (i := 3) (by decide)
theorem type_nibble (w : BitVec 32) : (U32.nibble w 0).toNat = field w 0 4 :=
  nibble_field w (i := 0) (by decide)
theorem group_nibble (w : BitVec 32) : (U32.nibble w 1).toNat = field w 4 4 :=
  nibble_field w (i := 1) (by decide)

theorem sysex7Status_eq (w : BitVec 32) (t : Buf .ump) :
    sysex7Status (w :: t) = match statusOfCode (field w 8 4) with
      | some s => .ok s
      | none => .err .invalidData := by
  rw [← status_nibble w]
  unfold sysex7Status statusOfCode
  show (match (U32.nibble w 2).toNat with
    | 0x0 => Res.ok PacketStatus.complete | 0x1 => Res.ok .start | 0x2 => Res.ok .continue_
    | 0x3 => Res.ok .end_ | _ => Res.err .invalidData) = _
  generalize (U32.nibble w 2).toNat = n
  match n with
  | 0 => rfl
  | 1 => rfl
  | 2 => rfl
  | 3 => rfl
  | n + 4 => rfl

theorem sysex8End_ok (w a b c : BitVec 32) (t : Buf .ump) :
    ∃ s, sysex8End (w :: a :: b :: c :: t) w = .ok s ∧
      (s = .unexpectedEnd true ↔ field w 24 8 = 0 ∧ a = 0 ∧ b = 0 ∧ c = 0 ∧ field w 12 4 = 1) ∧
      (s = .unexpectedEnd false ↔ field w 24 8 = 0 ∧ a = 0 ∧ b = 0 ∧ c = 0 ∧ field w 12 4 = 15) ∧
      (s = .end_ ∨ ∃ v, s = .unexpectedEnd v) := by
  have ho : (U32.octet w 3).toNat = field w 24 8 := octet_field w (i := 3) (by decide)
  unfold sysex8End
  rw [beq_toNat, ho]
  show ∃ s, (if decide (field w 24 8 = 0) then _ else _) = _ ∧ _
  by_cases h0 : field w 24 8 = 0
  · rw [if_pos (by simpa using h0), if_neg (by simp)]
    by_cases hz : a = 0 ∧ b = 0 ∧ c = 0
    · rw [if_pos (by simp [hz]), size_nibble]
      split
      · exact ⟨_, rfl, by simp [*], by simp [*], by simp⟩
      · exact ⟨_, rfl, by simp [*], by simp [*], by simp⟩
      · exact ⟨_, rfl, by simp_all, by simp_all, by simp⟩
    · rw [if_neg (by simpa [and_assoc] using hz)]
      exact ⟨_, rfl, by simp; intro _ h1 h2 h3; exact absurd ⟨h1, h2, h3⟩ hz,
        by simp; intro _ h1 h2 h3; exact absurd ⟨h1, h2, h3⟩ hz, by simp⟩
  · rw [if_neg (by simpa using h0)]
    exact ⟨_, rfl, by simp [h0], by simp [h0], by simp⟩

theorem sysex8Status_eq (w a b c : BitVec 32) (t : Buf .ump) :
    sysex8Status (w :: a :: b :: c :: t) = match field w 8 4 with
      | 0x0 => .ok .complete
      | 0x1 => .ok .start
      | 0x2 => .ok .continue_
      | 0x3 => sysex8End (w :: a :: b :: c :: t) w
      | _ => .err .invalidData := by
  rw [← status_nibble w]; rfl

end Packet

/-- What `try_from` returns. -/
def PacketKind.Result (k : PacketKind) (b : Buf .ump) : Prop :=
  (k.Accepts b → k.tryFrom b = .ok ((b ++ List.replicate k.words 0).take k.words)) ∧
  (¬ k.Accepts b → k.tryFrom b = .err .invalidData)

open PacketKind

theorem fieldAt_cons (w : BitVec 32) (t : Buf .ump) (p n : Nat) :
    fieldAt (w :: t) 0 p n = some (field w p n) := rfl

theorem tryFromWord_result (k : PacketKind) (t : BitVec 4) (h1 : k.least = 1) (h2 : k.words = 1)
    (h3 : k.code = t.toNat) (h4 : ∀ b, k.tryFrom b = Packet.tryFromWord t b)
    (h5 : k ≠ sysex7 ∧ k ≠ sysex8) (b : Buf .ump) : k.Result b := by
  unfold PacketKind.Result
  rw [h4, h2]
  cases b with
  | nil => exact ⟨fun h => absurd h.len (by rw [h1]; simp), fun _ => rfl⟩
  | cons w tl =>
    have e : Packet.tryFromWord t (w :: tl) =
        if U32.nibble w 0 != t then .err .invalidData else .ok [w] := rfl
    rw [e, Packet.bne_toNat, Packet.type_nibble, ← h3]
    constructor
    · intro h
      have := h.type
      rw [fieldAt_cons] at this
      rw [if_neg (by simp [Option.some.inj this])]
      rfl
    · intro h
      rw [if_pos]
      simp only [decide_eq_true_eq]
      intro e
      exact h ⟨by rw [h1]; simp, by rw [fieldAt_cons, e], fun h => by
        rcases h with h | h
        · exact absurd h h5.1
        · exact absurd h h5.2, fun h => absurd h h5.1⟩

theorem tryFromWords_result (k : PacketKind) (t : BitVec 4) (h1 : 0 < k.least)
    (h3 : k.code = t.toNat) (h4 : ∀ b, k.tryFrom b = Packet.tryFromWords t k.least k.words b)
    (h5 : k ≠ sysex7 ∧ k ≠ sysex8) (b : Buf .ump) : k.Result b := by
  unfold PacketKind.Result
  rw [h4]
  unfold Packet.tryFromWords
  by_cases hl : b.length < k.least
  · rw [if_pos hl]
    exact ⟨fun h => absurd h.len (by omega), fun _ => rfl⟩
  · rw [if_neg hl]
    cases b with
    | nil => simp at hl; omega
    | cons w tl =>
      show (_ → (if U32.nibble w 0 != t then _ else _) = _) ∧ (_ → (if U32.nibble w 0 != t then _ else _) = _)
      rw [Packet.bne_toNat, Packet.type_nibble, ← h3]
      constructor
      · intro h
        have := h.type
        rw [fieldAt_cons] at this
        rw [if_neg (by simp [Option.some.inj this]), Packet.padded_eq]
        rfl
      · intro h
        rw [if_pos]
        simp only [decide_eq_true_eq]
        intro e
        exact h ⟨by omega, by rw [fieldAt_cons, e], fun h => by
          rcases h with h | h
          · exact absurd h h5.1
          · exact absurd h h5.2, fun h => absurd h h5.1⟩

theorem statusOfCode_some (c : Nat) : (∃ s, statusOfCode c = some s) ↔ c ≤ 3 := by
  match c with
  | 0 | 1 | 2 | 3 => simp [statusOfCode]
  | c + 4 => simp [statusOfCode]

theorem tryFromSysex7_result (b : Buf .ump) : PacketKind.sysex7.Result b := by
  unfold PacketKind.Result
  show (_ → Packet.tryFromSysex7 b = _) ∧ (_ → Packet.tryFromSysex7 b = _)
  unfold Packet.tryFromSysex7
  by_cases hl : b.length < 2
  · rw [if_pos hl]
    exact ⟨fun h => absurd h.len (by show ¬ 2 ≤ _; omega), fun _ => rfl⟩
  · rw [if_neg hl]
    cases b with
    | nil => simp at hl
    | cons w tl =>
      simp only [show at' (w :: tl) 0 = .ok w from rfl, Res.ok_bind]
      rw [Packet.bne_toNat, Packet.type_nibble, Packet.size_nibble, Packet.sysex7Status_eq,
        show (3 : BitVec 4).toNat = 3 from rfl]
      constructor
      · intro h
        have h1 := h.type
        obtain ⟨s, h2, h3⟩ := h.status (.inl rfl)
        obtain ⟨n, h4, h5⟩ := h.size rfl
        rw [fieldAt_cons] at h1 h2 h4
        have h1 : field w 0 4 = 3 := Option.some.inj h1
        cases Option.some.inj h2
        cases Option.some.inj h4
        obtain ⟨s, hs⟩ := (statusOfCode_some _).mpr h3
        rw [if_neg (by simp [h1]), if_neg (by omega), hs, Packet.padded_eq]
        rfl
      · intro h
        by_cases h1 : field w 0 4 = 3
        · rw [if_neg (by simp [h1])]
          by_cases h2 : field w 12 4 > 6
          · rw [if_pos h2]
          · rw [if_neg h2]
            cases hs : statusOfCode (field w 8 4) with
            | none => rfl
            | some s =>
              exact absurd ⟨by show 2 ≤ _; omega, by rw [fieldAt_cons, h1]; rfl,
                fun _ => ⟨_, fieldAt_cons .., (statusOfCode_some _).mp ⟨s, hs⟩⟩,
                fun _ => ⟨_, fieldAt_cons .., by omega⟩⟩ h
        · rw [if_pos (by simp [h1])]

theorem four_words {b : Buf .ump} (h : 4 ≤ List.length b) :
    ∃ w x y z t, b = w :: x :: y :: z :: t := by
  match b, h with
  | w :: x :: y :: z :: t, _ => exact ⟨w, x, y, z, t, rfl⟩

theorem tryFromSysex8_result (b : Buf .ump) : PacketKind.sysex8.Result b := by
  unfold PacketKind.Result
  show (_ → Packet.tryFromSysex8 b = _) ∧ (_ → Packet.tryFromSysex8 b = _)
  unfold Packet.tryFromSysex8
  by_cases hl : b.length < 4
  · rw [if_pos hl]
    exact ⟨fun h => absurd h.len (by show ¬ 4 ≤ _; omega), fun _ => rfl⟩
  · rw [if_neg hl]
    obtain ⟨w, x, y, z, tl, rfl⟩ := four_words (by omega : 4 ≤ List.length b)
    simp only [show at' (w :: x :: y :: z :: tl) 0 = .ok w from rfl, Res.ok_bind]
    rw [Packet.bne_toNat, Packet.type_nibble, Packet.sysex8Status_eq,
      show (5 : BitVec 4).toNat = 5 from rfl]
    obtain ⟨s, hs, _⟩ := Packet.sysex8End_ok w x y z tl
    rw [hs]
    constructor
    · intro h
      have h1 := h.type
      obtain ⟨s, h2, h3⟩ := h.status (.inr rfl)
      rw [fieldAt_cons] at h1 h2
      have h1 : field w 0 4 = 5 := Option.some.inj h1
      cases Option.some.inj h2
      rw [if_neg (by simp [h1]), Packet.padded_eq]
      have : field w 8 4 = 0 ∨ field w 8 4 = 1 ∨ field w 8 4 = 2 ∨ field w 8 4 = 3 := by omega
      rcases this with e | e | e | e <;> rw [e] <;> rfl
    · intro h
      by_cases h1 : field w 0 4 = 5
      · rw [if_neg (by simp [h1])]
        have h3 : ¬ field w 8 4 ≤ 3 := fun h3 => h ⟨by show 4 ≤ _; omega,
          by rw [fieldAt_cons, h1]; rfl, fun _ => ⟨_, fieldAt_cons .., h3⟩, fun e => by cases e⟩
        split
        · omega
        · omega
        · omega
        · omega
        · rfl
      · rw [if_pos (by simp [h1])]

/-! ### Payload -/

namespace Packet

/-- The bytes of a packet that declares `s` of them. -/
def payloadOf (k : Sx) (p : Buf .ump) (s : Nat) : List k.Byte :=
  (List.range s).map fun i => k.get (p.getD ((i + k.off) / 4) 0) ((i + k.off) % 4)

theorem length_payloadOf (k : Sx) (p : Buf .ump) (s : Nat) : (payloadOf k p s).length = s := by
  simp [payloadOf]

/-- The words the bytes of a packet are in. -/
theorem index_of {k : Sx} {p : Buf .ump} {s i : Nat} (hw : p.length = k.stride) (hs : s ≤ k.cap)
    (h : i < s) : (i + k.off) / 4 < p.length := by
  rw [hw]
  cases k
  · have : s ≤ 6 := hs
    show (i + 2) / 4 < 2
    omega
  · have : s ≤ 13 := hs
    show (i + 3) / 4 < 4
    omega

theorem bytes_of {k : Sx} {p : Buf .ump} {s : Nat} (hw : p.length = k.stride) (hs : s ≤ k.cap) :
    (payloadOf k p s).map BitVec.toNat = k.layout.packetBytes p 0 s := by
  unfold payloadOf SysexLayout.packetBytes
  rw [List.map_map]
  apply List.map_congr_left
  intro i hi
  have hi := index_of hw hs (List.mem_range.mp hi)
  have e : 4 * k.layout.words * 0 + k.layout.first + i = i + k.off := by
    cases k <;> simp [Sx.layout, sysex7Layout, sysex8Layout, Sx.off] <;> omega
  rw [e]
  have ho : (i + k.off) % 4 < 4 := Nat.mod_lt _ (by decide)
  have hv : octetVal p (i + k.off) = (U32.octet (p[(i + k.off) / 4]'hi) ((i + k.off) % 4)).toNat := by
    unfold octetVal
    rw [fieldAt_ok hi, octet_field _ ho]; rfl
  rw [hv, Function.comp, List.getD_eq_getElem?_getD, List.getElem?_eq_getElem hi, Option.getD_some,
    Sx.get_eq]
  unfold Sx.ofOctet
  rw [BitVec.toNat_setWidth]
  cases k <;> rfl

/-- A packet that declares `s` bytes. -/
structure Frame (dbg : Bool) (k : Sx) (p : Buf .ump) (s : Nat) : Prop where
  words : p.length = k.stride
  size : payloadSize dbg k p = .ok s
  small : s ≤ k.cap

namespace Frame

variable {dbg : Bool} {k : Sx} {p : Buf .ump} {s : Nat}

theorem index (F : Frame dbg k p s) {i : Nat} (h : i < s) : (i + k.off) / 4 < p.length :=
  index_of F.words F.small h

theorem value (F : Frame dbg k p s) {i : Nat} (h : i < s) :
    ∃ v, payloadValue k p i = .ok v ∧ (payloadOf k p s)[i]? = some v := by
  have hi := F.index h
  refine ⟨k.get (p[(i + k.off) / 4]'hi) ((i + k.off) % 4), ?_, ?_⟩
  · unfold payloadValue; rw [at'_ok hi]; rfl
  · unfold payloadOf
    rw [List.getElem?_map, List.getElem?_range h, Option.map_some, List.getD_eq_getElem?_getD,
      List.getElem?_eq_getElem hi]
    rfl

theorem bytes (F : Frame dbg k p s) :
    (payloadOf k p s).map BitVec.toNat = k.layout.packetBytes p 0 s := bytes_of F.words F.small

theorem len (F : Frame dbg k p s) {i : Nat} (h : i ≤ s) :
    Packet.len dbg k p i = .ok ((payloadOf k p s).drop i).length := by
  unfold Packet.len
  rw [F.size, Res.ok_bind]
  unfold usub
  rw [if_pos h, List.length_drop, length_payloadOf]

theorem drop_nil (k : Sx) (p : Buf .ump) {s i : Nat} (h : s ≤ i) : (payloadOf k p s).drop i = [] :=
  List.drop_of_length_le (by rw [length_payloadOf]; exact h)

theorem next (F : Frame dbg k p s) (i : Nat) :
    ∃ i', Packet.next dbg k p i = .ok (((payloadOf k p s).drop i).head?, i') ∧
      (payloadOf k p s).drop i' = ((payloadOf k p s).drop i).tail ∧ (i ≤ s → i' ≤ s) := by
  unfold Packet.next
  rw [F.size, Res.ok_bind]
  by_cases h : i ≥ s
  · rw [if_pos h, drop_nil k p h]
    exact ⟨i, rfl, drop_nil k p h, id⟩
  · rw [if_neg h]
    obtain ⟨v, e1, e2⟩ := F.value (by omega : i < s)
    rw [e1, List.head?_drop, e2]
    exact ⟨i + 1, rfl, by rw [List.tail_drop], fun _ => by omega⟩

theorem nth_value (F : Frame dbg k p s) (n i : Nat) :
    ∃ i', Packet.nth dbg k p n i = .ok (((payloadOf k p s).drop i)[n]?, i') := by
  unfold Packet.nth
  rw [F.size, Res.ok_bind]
  by_cases h : i + n ≥ s
  · rw [if_pos h, List.getElem?_drop, List.getElem?_eq_none (by rw [length_payloadOf]; exact h)]
    exact ⟨_, rfl⟩
  · rw [if_neg h, List.getElem?_drop]
    obtain ⟨v, e1, e2⟩ := F.value (by omega : i + n < s)
    rw [e1, e2]
    exact ⟨_, rfl⟩

end Frame

theorem Frame.nth7 {dbg : Bool} {p : Buf .ump} {s : Nat} (F : Frame dbg .s7 p s) (n i : Nat) :
    ∃ i', Packet.nth dbg .s7 p n i = .ok (((payloadOf .s7 p s).drop i)[n]?, i') ∧
      (payloadOf .s7 p s).drop i' = ((payloadOf .s7 p s).drop i).drop (n + 1) ∧
      (i ≤ s → s = 6 ∨ n ≤ ((payloadOf .s7 p s).drop i).length → i' ≤ s) := by
  have hs : s ≤ 6 := F.small
  unfold Packet.nth
  rw [F.size, Res.ok_bind, List.length_drop, length_payloadOf]
  by_cases h : i + n ≥ s
  · rw [if_pos h, List.getElem?_drop, List.getElem?_eq_none (by rw [length_payloadOf]; exact h)]
    refine ⟨_, rfl, ?_, ?_⟩
    · show List.drop (min (i + n) 6) _ = _
      rw [List.drop_drop, Frame.drop_nil _ _ (by omega), Frame.drop_nil _ _ (by omega)]
    · intro h1 h2
      show min (i + n) 6 ≤ s
      omega
  · rw [if_neg h, List.getElem?_drop]
    obtain ⟨v, e1, e2⟩ := F.value (by omega : i + n < s)
    rw [e1, e2]
    exact ⟨i + (n + 1), rfl, by rw [List.drop_drop], fun _ _ => by omega⟩

theorem Frame.run7 {dbg : Bool} {p : Buf .ump} {s : Nat} (F : Frame dbg .s7 p s) {wl : Bool} :
    ∀ (cs : List ItCall) (i : Nat),
      (wl = true → i ≤ s ∧ (s = 6 ∨ ItCall.NoOvershoot cs ((payloadOf .s7 p s).drop i))) →
      ItCall.packetExecAll dbg wl .s7 p cs i =
        .ok (ItCall.listExecAll wl cs ((payloadOf .s7 p s).drop i))
  | [], _, _ => rfl
  | c :: cs, i, h => by
    obtain ⟨i', e1, e2, e3⟩ : ∃ i', (match c with
        | .next => Packet.next dbg .s7 p i
        | .nth n => Packet.nth dbg .s7 p n i) =
          .ok ((c.apply ((payloadOf .s7 p s).drop i)).1, i') ∧
        (payloadOf .s7 p s).drop i' = (c.apply ((payloadOf .s7 p s).drop i)).2 ∧
        (wl = true → i' ≤ s) := by
      cases c with
      | next =>
        obtain ⟨i', e1, e2, e3⟩ := F.next i
        exact ⟨i', e1, e2, fun hw => e3 (h hw).1⟩
      | nth n =>
        obtain ⟨i', e1, e2, e3⟩ := F.nth7 n i
        exact ⟨i', e1, e2, fun hw => e3 (h hw).1 ((h hw).2.imp id fun h => h.1 n rfl)⟩
    have ih := F.run7 cs i' (fun hw => ⟨e3 hw, (h hw).2.imp id fun h => by rw [e2]; exact h.2⟩)
    have el : ItCall.packetLen dbg wl .s7 p i' = .ok (if wl then
        some (c.apply ((payloadOf .s7 p s).drop i)).2.length else none) := by
      unfold ItCall.packetLen
      cases wl with
      | false => rfl
      | true =>
        rw [if_pos rfl, if_pos rfl, F.len (e3 rfl), ← e2]; rfl
    unfold ItCall.packetExecAll ItCall.listExecAll
    rw [← e2] at el ⊢
    cases c <;> simp only at e1 <;> simp only [e1, Res.ok_bind, el, ih] <;> rfl

theorem Frame.run_next {dbg : Bool} {k : Sx} {p : Buf .ump} {s : Nat} (F : Frame dbg k p s) :
    ∀ (m i : Nat), i ≤ s →
      ItCall.packetExecAll dbg true k p (List.replicate m .next) i =
        .ok (ItCall.listExecAll true (List.replicate m .next) ((payloadOf k p s).drop i))
  | 0, _, _ => rfl
  | m + 1, i, h => by
    obtain ⟨i', e1, e2, e3⟩ := F.next i
    have ih := F.run_next m i' (e3 h)
    rw [List.replicate_succ]
    unfold ItCall.packetExecAll ItCall.listExecAll
    simp only [e1, Res.ok_bind, ItCall.packetLen, if_true, F.len (e3 h), ih, ItCall.apply, e2]
    rfl

theorem Frame.run_next_nth {dbg : Bool} {k : Sx} {p : Buf .ump} {s : Nat} (F : Frame dbg k p s) :
    ∀ (m j i : Nat),
      ItCall.packetExecAll dbg false k p (List.replicate m .next ++ [.nth j]) i =
        .ok (ItCall.listExecAll false (List.replicate m .next ++ [.nth j])
          ((payloadOf k p s).drop i))
  | 0, j, i => by
    obtain ⟨i', e1⟩ := F.nth_value j i
    show ItCall.packetExecAll dbg false k p [.nth j] i = _
    unfold ItCall.packetExecAll
    simp only [e1, Res.ok_bind, ItCall.packetLen, ItCall.packetExecAll]
    rfl
  | m + 1, j, i => by
    obtain ⟨i', e1, e2, e3⟩ := F.next i
    have ih := F.run_next_nth m j i'
    rw [List.replicate_succ, List.cons_append]
    unfold ItCall.packetExecAll ItCall.listExecAll
    simp only [e1, Res.ok_bind, ItCall.packetLen, ih, ItCall.apply, e2]
    rfl

end Packet

/-! ### `packets()` -/

theorem run_type {b : List (BitVec 32)} {k t j : Nat} (hk : 0 < k)
    (hj : j < ((packetHeads k b).takeWhile fun w => decide (field w 0 4 = t)).length) :
    fieldAt b (k * j) 0 4 = some t := by
  have hp := List.takeWhile_prefix (l := packetHeads k b) (fun w => decide (field w 0 4 = t))
  have hj' := Nat.lt_of_lt_of_le hj hp.length_le
  have e := hp.getElem hj
  have hm : field _ 0 4 = t :=
    of_decide_eq_true (Sx.mem_takeWhile_true (fun w => decide (field w 0 4 = t)) _
      (List.getElem_mem hj))
  rw [e] at hm
  have hlen : j < (b.length + k - 1) / k := by
    have : (packetHeads k b).length = (b.length + k - 1) / k := by simp [packetHeads]
    rwa [this] at hj'
  have hb : k * j < b.length := by
    have h1 : (j + 1) * k ≤ (b.length + k - 1) / k * k := Nat.mul_le_mul_right k hlen
    have h2 := Nat.div_mul_le_self (b.length + k - 1) k
    rw [Nat.add_mul, Nat.mul_comm j k] at h1
    omega
  have : (packetHeads k b)[j] = b[k * j] := by
    simp [packetHeads, List.getElem?_eq_getElem hb]
  rw [this] at hm
  rw [fieldAt_ok hb, hm]

theorem flatten_at {α : Type} {n : Nat} : ∀ {ps : List (List α)}, (∀ p ∈ ps, p.length = n) →
    ∀ {j : Nat} {c : List α}, ps[j]? = some c → ∀ {i : Nat}, i < n → ps.flatten[n * j + i]? = c[i]?
  | [], _, j, _, h, _, _ => by cases j <;> cases h
  | p :: ps, hl, 0, c, h, i, hi => by
    cases h
    rw [List.flatten_cons, Nat.mul_zero, Nat.zero_add,
      List.getElem?_append_left (by rw [hl p List.mem_cons_self]; exact hi)]
  | p :: ps, hl, j + 1, c, h, i, hi => by
    have hp := hl p List.mem_cons_self
    rw [List.flatten_cons, List.getElem?_append_right (by rw [hp, Nat.mul_succ]; omega), hp,
      show n * (j + 1) + i - n = n * j + i by rw [Nat.mul_succ]; omega]
    exact flatten_at (fun p h => hl p (List.mem_cons_of_mem _ h)) h hi

/-- A field of the first word of a packet is a field of the slice. -/
theorem chunk_field {b d : Buf .ump} (hd : d <+: b) {n : Nat} (hn : 0 < n) {ps : List (Buf .ump)}
    (hl : ∀ p ∈ ps, p.length = n) (hf : ps.flatten = d) {j : Nat} {c : Buf .ump}
    (hc : ps[j]? = some c) (x y : Nat) : fieldAt c 0 x y = fieldAt b (n * j) x y := by
  have h1 := flatten_at hl hc hn
  rw [hf, Nat.add_zero] at h1
  have hcl : c.length = n := hl c (List.mem_of_getElem? hc)
  have h2 : c[0]? = some c[0] := List.getElem?_eq_getElem (by omega)
  rw [h2] at h1
  obtain ⟨hlt, -⟩ := List.getElem?_eq_some_iff.mp h1
  have h3 := hd.getElem hlt
  unfold fieldAt
  rw [h2, List.getElem?_eq_getElem (Nat.lt_of_lt_of_le hlt hd.length_le), ← h3]
  obtain ⟨_, h4⟩ := List.getElem?_eq_some_iff.mp h1
  rw [h4]

theorem packets_run_map {kind : PacketKind} {f : Buf .ump → Buf .ump} :
    ∀ {ps : List (Buf .ump)} (cs : List ItCall),
    (∀ c ∈ ps, Packet.tryFrom c = .ok (kind, f c)) →
    ItCall.packetsExecAll cs ps = .ok (ItCall.packetListAll cs (ps.map fun c => (kind, f c)))
  | _, [], _ => rfl
  | ps, c :: cs, h => by
    have key : ∀ (n : Nat), ∃ v, Packet.itNext (ps.drop n) = .ok (v, ps.drop (n + 1)) ∧
        v = (ps.map fun c => (kind, f c))[n]? := by
      intro n
      rw [List.getElem?_map]
      cases e : ps[n]? with
      | none =>
        have hle := List.getElem?_eq_none_iff.mp e
        rw [List.drop_of_length_le hle, List.drop_of_length_le (by omega)]
        exact ⟨_, rfl, rfl⟩
      | some p =>
        obtain ⟨hlt, hv⟩ := List.getElem?_eq_some_iff.mp e
        rw [List.drop_eq_getElem_cons hlt, hv]
        simp only [Packet.itNext, h p (List.mem_of_getElem? e)]
        exact ⟨_, rfl, rfl⟩
    have step : ∀ n, (ItCall.apply (ps.map fun c => (kind, f c)) c) =
          ((ps.map fun c => (kind, f c))[n]?, (ps.map fun c => (kind, f c)).drop (n + 1)) →
        (match c with
          | .next => Packet.itNext ps
          | .nth n => Packet.itNth n ps) = Packet.itNext (ps.drop n) →
        ItCall.packetsExecAll (c :: cs) ps =
          .ok (ItCall.packetListAll (c :: cs) (ps.map fun c => (kind, f c))) := by
      intro n ha he
      obtain ⟨v, e1, e2⟩ := key n
      have ih := packets_run_map (ps := ps.drop (n + 1)) cs
        (fun c hc => h c (List.mem_of_mem_drop hc))
      unfold ItCall.packetsExecAll ItCall.packetListAll
      rw [e1] at he
      rw [ha, ← e2, ← List.map_drop]
      cases c <;> simp only at he <;>
        simp only [he, Res.ok_bind, ih, Packet.itLen, List.length_map] <;> rfl
    cases c with
    | next => exact step 0 (by simp [ItCall.apply, List.head?_eq_getElem?]) rfl
    | nth n => exact step n rfl rfl

theorem packets_run {kind : PacketKind} {ps : List (Buf .ump)} (cs : List ItCall)
    (h : ∀ c ∈ ps, Packet.tryFrom c = .ok (kind, c)) :
    ItCall.packetsExecAll cs ps = .ok (ItCall.packetListAll cs (ps.map fun c => (kind, c))) :=
  packets_run_map (f := fun c => c) cs h

end Midi2
