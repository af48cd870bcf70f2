import Verif.Lemmas.Packet

/-!
# C33, C34: packets
-/

namespace Midi2

/-! ## C34: parsing -/

/-- C34: `try_from` of a typed packet accepts exactly the slices that begin with a packet of the
type, and takes the first words of the slice, filled up with zeros.  It never panics. -/
theorem C34_typed_accepts_exactly (k : PacketKind) (b : Buf .ump) :
    (k.Accepts b → k.tryFrom b = .ok ((b ++ List.replicate k.words 0).take k.words)) ∧
    (¬ k.Accepts b → k.tryFrom b = .err .invalidData) := by
  cases k
  · exact tryFromWord_result .channelVoice1 2 rfl rfl rfl (fun _ => rfl) (by decide) b
  · exact tryFromWords_result .channelVoice2 4 (by decide) rfl (fun _ => rfl) (by decide) b
  · exact tryFromWords_result .flexData 13 (by decide) rfl (fun _ => rfl) (by decide) b
  · exact tryFromSysex7_result b
  · exact tryFromSysex8_result b
  · exact tryFromWord_result .systemCommon 1 rfl rfl rfl (fun _ => rfl) (by decide) b
  · exact tryFromWords_result .umpStream 15 (by decide) rfl (fun _ => rfl) (by decide) b
  · exact tryFromWord_result .utility 0 rfl rfl rfl (fun _ => rfl) (by decide) b

example : PacketKind.sysex7.Accepts [0x3A120102, 0, 7] :=
  ⟨by decide, by decide, fun _ => ⟨1, by decide, by decide⟩, fun _ => ⟨2, by decide, by decide⟩⟩
example : PacketKind.flexData.tryFrom [0xD0100000, 5] = .ok [0xD0100000, 5, 0, 0] := by
  decide +kernel

theorem packet_arms_lookup (k : PacketKind) : Packet.arms.lookup k.code = some k := by
  cases k <;> rfl

theorem packet_arms_code {c : Nat} {k : PacketKind} (h : Packet.arms.lookup c = some k) :
    c = k.code := by
  have : ∀ e ∈ Packet.arms, e.1 = e.2.code := by decide
  exact this _ (lookup_mem h)

theorem packet_tryFrom_cons (w : BitVec 32) (t : Buf .ump) :
    Packet.tryFrom (w :: t) = dispatch PacketKind.tryFrom Packet.arms (field w 0 4) (w :: t) := by
  rw [← Packet.type_nibble]; rfl

/-- C34: `Packet::try_from` accepts exactly the slices some typed packet accepts, with that
type. -/
theorem C34_packet_accepts_exactly (b : Buf .ump) :
    (∀ k : PacketKind, k.Accepts b →
      Packet.tryFrom b = .ok (k, (b ++ List.replicate k.words 0).take k.words)) ∧
    ((∀ k : PacketKind, ¬ k.Accepts b) → Packet.tryFrom b = .err .invalidData) := by
  cases b with
  | nil => exact ⟨fun k h => (nomatch h.type), fun _ => rfl⟩
  | cons w t =>
    rw [packet_tryFrom_cons]
    constructor
    · intro k h
      have h1 : field w 0 4 = k.code := Option.some.inj h.type
      unfold dispatch
      rw [h1, packet_arms_lookup]
      simp only
      rw [(C34_typed_accepts_exactly k _).1 h]; rfl
    · intro h
      unfold dispatch
      cases e : Packet.arms.lookup (field w 0 4) with
      | none => rfl
      | some k =>
        simp only
        rw [(C34_typed_accepts_exactly k _).2 (h k)]; rfl

example : Packet.tryFrom [0x40903C03, 0x80001234, 7] =
      .ok (.channelVoice2, [0x40903C03, 0x80001234]) ∧
    Packet.tryFrom [0x60903C03] = .err .invalidData := by decide +kernel

/-- C34: at most one type accepts. -/
theorem C34_packet_unique (b : Buf .ump) (k k' : PacketKind) (h : k.Accepts b)
    (h' : k'.Accepts b) : k = k' := by
  have e : k.code = k'.code := Option.some.inj (h.type.symm.trans h'.type)
  revert e
  cases k <;> cases k' <;> decide

example : Packet.tryFrom [0x20903C40, 1, 2] = .ok (.channelVoice1, [0x20903C40]) ∧
    Packet.tryFrom [0xE0000000] = .err .invalidData := by decide +kernel

/-! ## C34: accessors -/

theorem accepted_packet {k : PacketKind} {b p : Buf .ump} (h : k.tryFrom b = .ok p) :
    k.Accepts b ∧ p = (b ++ List.replicate k.words 0).take k.words ∧
      ∃ w tb tp, b = w :: tb ∧ p = w :: tp := by
  have hA : k.Accepts b := Classical.byContradiction fun hn => by
    rw [(C34_typed_accepts_exactly k b).2 hn] at h; cases h
  have e := (C34_typed_accepts_exactly k b).1 hA
  rw [h] at e
  have e := Res.ok.inj e
  refine ⟨hA, e, ?_⟩
  cases b with
  | nil => exact nomatch hA.type
  | cons w tb =>
    rw [e]
    obtain ⟨n, hn⟩ : ∃ n, k.words = n + 1 := by cases k <;> exact ⟨_, rfl⟩
    rw [hn]
    exact ⟨w, tb, _, rfl, rfl⟩

theorem setNibble_set (w : BitVec 32) (t : Buf .ump) {i : Nat} (hi : i < 8) (v : BitVec 4) :
    FirstWordSet (w :: t) (U32.setNibble w i v :: t) (4 * i) 4 v.toNat := by
  obtain ⟨hg, hs⟩ := C42_u32_positions.2.2.1 i hi
  refine ⟨w, _, t, rfl, rfl, ?_, ?_⟩
  · rw [← nibble_field _ hi, U32.nibble_setNibble _ _ _ hi hi, if_pos rfl]
  · intro j hj h
    have := hs w v j hj
    simp only at this
    rw [this, if_neg (by omega)]

/-- C34: `group()` of an accepted packet is the group on the wire, and `set_group` sets it and
changes nothing else.  (Utility and stream packets have no group.) -/
theorem C34_group (k : PacketKind) (_hk : k ≠ .utility ∧ k ≠ .umpStream) (b p : Buf .ump)
    (h : k.tryFrom b = .ok p) :
    (∃ g, Packet.group p = .ok g ∧ fieldAt b 0 4 4 = some g.toNat) ∧
    ∀ g, ∃ p', Packet.setGroup p g = .ok p' ∧ Packet.group p' = .ok g ∧
      FirstWordSet p p' 4 4 g.toNat := by
  obtain ⟨_, _, w, tb, tp, rfl, rfl⟩ := accepted_packet h
  refine ⟨⟨U32.nibble w 1, rfl, by rw [fieldAt_cons, Packet.group_nibble]⟩, fun g => ?_⟩
  refine ⟨U32.setNibble w 1 g :: tp, rfl, ?_, setNibble_set w tp (i := 1) (by decide) g⟩
  show Res.ok (U32.nibble (U32.setNibble w 1 g) 1) = _
  rw [U32.nibble_setNibble _ _ _ (by decide) (by decide), if_pos rfl]

example : ∃ p', Packet.setGroup [0x4A953C00, 0] 7 = .ok p' ∧ Packet.group p' = .ok 7 :=
  have ⟨p', h1, h2, _⟩ := (C34_group .channelVoice2 (by decide) [0x4A953C00] [0x4A953C00, 0]
    (by decide +kernel)).2 7
  ⟨p', h1, h2⟩

/-- C34: the same for `channel()` of channel voice packets. -/
theorem C34_channel (k : PacketKind) (_hk : k = .channelVoice1 ∨ k = .channelVoice2)
    (b p : Buf .ump) (h : k.tryFrom b = .ok p) :
    (∃ c, Packet.channel p = .ok c ∧ fieldAt b 0 12 4 = some c.toNat) ∧
    ∀ c, ∃ p', Packet.setChannel p c = .ok p' ∧ Packet.channel p' = .ok c ∧
      FirstWordSet p p' 12 4 c.toNat := by
  obtain ⟨_, _, w, tb, tp, rfl, rfl⟩ := accepted_packet h
  refine ⟨⟨U32.nibble w 3, rfl, by rw [fieldAt_cons, Packet.size_nibble]⟩, fun g => ?_⟩
  refine ⟨U32.setNibble w 3 g :: tp, rfl, ?_, setNibble_set w tp (i := 3) (by decide) g⟩
  show Res.ok (U32.nibble (U32.setNibble w 3 g) 3) = _
  rw [U32.nibble_setNibble _ _ _ (by decide) (by decide), if_pos rfl]

example : PacketKind.channelVoice2.tryFrom [0x4A953C00] = .ok [0x4A953C00, 0] ∧
    Packet.setChannel [0x4A953C00, 0] 7 = .ok [0x4A973C00, 0] := by decide +kernel

theorem formatOf_eq (c : BitVec 2) : ∃ s, Packet.formatOf c = .ok s ∧
    statusOfCode c.toNat = some s := by
  have : ∀ c : BitVec 2, c = 0 ∨ c = 1 ∨ c = 2 ∨ c = 3 := by decide
  rcases this c with h | h | h | h <;> subst h <;> exact ⟨_, rfl, rfl⟩

/-- C34: `format()` of an accepted flex data or stream packet and `status()` of an accepted
sysex7 packet are what the header says. -/
theorem C34_format (b p : Buf .ump) :
    (PacketKind.flexData.tryFrom b = .ok p → ∃ s c, Packet.flexFormat p = .ok s ∧
      fieldAt b 0 8 2 = some c ∧ statusOfCode c = some s) ∧
    (PacketKind.umpStream.tryFrom b = .ok p → ∃ s c, Packet.streamFormat p = .ok s ∧
      fieldAt b 0 4 2 = some c ∧ statusOfCode c = some s) ∧
    (PacketKind.sysex7.tryFrom b = .ok p → ∃ s c, Packet.sysexStatus .s7 p = .ok s ∧
      fieldAt b 0 8 4 = some c ∧ statusOfCode c = some s) := by
  refine ⟨fun h => ?_, fun h => ?_, fun h => ?_⟩
  · obtain ⟨_, _, w, tb, tp, rfl, rfl⟩ := accepted_packet h
    obtain ⟨s, h1, h2⟩ := formatOf_eq (U32.crumb w 4)
    exact ⟨s, _, h1, by rw [fieldAt_cons, ← crumb_field w (i := 4) (by decide)], h2⟩
  · obtain ⟨_, _, w, tb, tp, rfl, rfl⟩ := accepted_packet h
    obtain ⟨s, h1, h2⟩ := formatOf_eq (U32.crumb w 2)
    exact ⟨s, _, h1, by rw [fieldAt_cons, ← crumb_field w (i := 2) (by decide)], h2⟩
  · obtain ⟨hA, _, w, tb, tp, rfl, rfl⟩ := accepted_packet h
    obtain ⟨c, h1, h2⟩ := hA.status (.inl rfl)
    rw [fieldAt_cons] at h1
    cases Option.some.inj h1
    obtain ⟨s, hs⟩ := (statusOfCode_some _).mpr h2
    refine ⟨s, _, ?_, fieldAt_cons .., hs⟩
    show (Packet.sysex7Status (w :: tp)).unwrap = _
    rw [Packet.sysex7Status_eq, hs]; rfl

example : PacketKind.umpStream.tryFrom [0xF4030000] = .ok [0xF4030000, 0, 0, 0] ∧
    Packet.streamFormat [0xF4030000, 0, 0, 0] = .ok .start := by decide +kernel

/-- C34: `status()` and `stream_id()` of an accepted sysex8 packet: an unexpected end is an end
packet without any data, with size field 1 or 15; any other packet has the status of its code. -/
theorem C34_sysex8_status (b p : Buf .ump) (h : PacketKind.sysex8.tryFrom b = .ok p) :
    ∃ s c n i, Packet.sysexStatus .s8 p = .ok s ∧ Packet.streamId p = .ok i ∧
      fieldAt b 0 8 4 = some c ∧ fieldAt b 0 12 4 = some n ∧ fieldAt b 0 16 8 = some i.toNat ∧
      ((s = .unexpectedEnd true ↔ c = 3 ∧ n = 1 ∧ octetVal b 3 = 0 ∧ (b.take 4).tail = [0, 0, 0]) ∧
       (s = .unexpectedEnd false ↔ c = 3 ∧ n = 15 ∧ octetVal b 3 = 0 ∧
          (b.take 4).tail = [0, 0, 0]) ∧
       (statusOfCode c = some s ∨ ∃ v, s = .unexpectedEnd v)) := by
  obtain ⟨hA, hp, -⟩ := accepted_packet h
  obtain ⟨w, x, y, z, t, rfl⟩ := four_words hA.len
  have hp : p = [w, x, y, z] := hp
  subst hp
  obtain ⟨c, h1, h2⟩ := hA.status (.inr rfl)
  rw [fieldAt_cons] at h1
  cases Option.some.inj h1
  obtain ⟨s, hs, a1, a2, a3⟩ := Packet.sysex8End_ok w x y z []
  have hv : octetVal (w :: x :: y :: z :: t) 3 = field w 24 8 := rfl
  have hst : Packet.sysexStatus .s8 [w, x, y, z] = (Packet.sysex8Status [w, x, y, z]).unwrap := rfl
  have hi : field w 16 8 = (U32.octet w 2).toNat := (octet_field w (i := 2) (by decide)).symm
  rw [hst, Packet.sysex8Status_eq, hs, hv]
  have : field w 8 4 = 0 ∨ field w 8 4 = 1 ∨ field w 8 4 = 2 ∨ field w 8 4 = 3 := by omega
  rcases this with e | e | e | e <;> rw [e]
  · exact ⟨.complete, 0, _, _, rfl, rfl, by rw [fieldAt_cons, e], fieldAt_cons .., by
      rw [fieldAt_cons, hi], by simp, by simp, .inl rfl⟩
  · exact ⟨.start, 1, _, _, rfl, rfl, by rw [fieldAt_cons, e], fieldAt_cons .., by
      rw [fieldAt_cons, hi], by simp, by simp, .inl rfl⟩
  · exact ⟨.continue_, 2, _, _, rfl, rfl, by rw [fieldAt_cons, e], fieldAt_cons .., by
      rw [fieldAt_cons, hi], by simp, by simp, .inl rfl⟩
  · refine ⟨s, 3, _, _, rfl, rfl, by rw [fieldAt_cons, e], fieldAt_cons .., by
      rw [fieldAt_cons, hi], ?_, ?_, ?_⟩
    · rw [a1]; simp [and_comm, and_left_comm]
    · rw [a2]; simp [and_comm, and_left_comm]
    · rcases a3 with a3 | a3
      · exact .inl (by rw [a3]; rfl)
      · exact .inr a3

example : PacketKind.sysex8.tryFrom [0x503F0000, 0, 0, 0, 9] = .ok [0x503F0000, 0, 0, 0] ∧
    Packet.sysexStatus .s8 [0x503F0000, 0, 0, 0] = .ok (.unexpectedEnd false) := by decide +kernel

/-! ## C34: payload of sysex packets -/

/-- C34: any calls of `next` and `nth` on the payload of an accepted sysex7 packet return the
bytes the packet declares.  `len()`, `size_hint()` and `count()` are right as long as no `nth`
goes past the end of a packet that is not full; otherwise they panic, see the violation. -/
theorem C34_sysex7_payload_partial (dbg : Bool) (b p : Buf .ump)
    (h : PacketKind.sysex7.tryFrom b = .ok p) :
    ∃ s l, fieldAt b 0 12 4 = some s ∧ l.map BitVec.toNat = sysex7Layout.packetBytes p 0 s ∧
      Packet.len dbg .s7 p 0 = .ok l.length ∧
      ∀ cs : List ItCall,
        ItCall.packetExecAll dbg false .s7 p cs 0 = .ok (ItCall.listExecAll false cs l) ∧
        (s = 6 ∨ ItCall.NoOvershoot cs l →
          ItCall.packetExecAll dbg true .s7 p cs 0 = .ok (ItCall.listExecAll true cs l)) := by
  obtain ⟨hA, hp, w, tb, tp, rfl, rfl⟩ := accepted_packet h
  obtain ⟨s, h1, h2⟩ := hA.size rfl
  rw [fieldAt_cons] at h1
  have h1 : field w 12 4 = s := Option.some.inj h1
  have F : Packet.Frame dbg .s7 (w :: tp) s := by
    refine ⟨?_, ?_, h2⟩
    · rw [hp]
      have := hA.len
      simp only [List.length_take, List.length_append, List.length_replicate]
      show min 2 (_ + 2) = 2
      omega
    · show (usub (U32.nibble w 3).toNat 0 >>= fun n =>
        if dbg && decide (n > 6) then Res.panic else pure n) = _
      rw [Packet.size_nibble, h1]
      show (if dbg && decide (s > 6) then Res.panic else pure s) = _
      rw [if_neg (by simp; omega)]; rfl
  refine ⟨s, _, by rw [fieldAt_cons, h1], F.bytes, ?_, fun cs => ⟨?_, fun hc => ?_⟩⟩
  · rw [F.len (Nat.zero_le _)]; simp [Packet.payloadOf]
  · exact F.run7 cs 0 (fun h => by cases h) 
  · exact F.run7 cs 0 (fun _ => ⟨Nat.zero_le _, hc⟩)

example : PacketKind.sysex7.tryFrom [0x30030102, 0x03000000] = .ok [0x30030102, 0x03000000] ∧
    ItCall.packetExecAll true true .s7 [0x30030102, 0x03000000] [.nth 1, .next, .next] 0 =
      .ok [(some 2, some 1), (some 3, some 0), (none, some 0)] := by decide +kernel

/-- C34: calls of `next` on the payload of an accepted sysex8 packet with a size field in
1, …, 14 return the bytes the packet declares and keep `len()` right, and the first `nth`
returns the right byte.  (Missing: other size fields and what follows an `nth`, see the
violation.) -/
theorem C34_sysex8_payload_partial (dbg : Bool) (b p : Buf .ump)
    (h : PacketKind.sysex8.tryFrom b = .ok p) (n : Nat)
    (hn : fieldAt b 0 12 4 = some n) (h1 : 1 ≤ n) (h14 : n ≤ 14) :
    ∃ l, l.map BitVec.toNat = sysex8Layout.packetBytes p 0 (n - 1) ∧
      Packet.len dbg .s8 p 0 = .ok l.length ∧
      ∀ m j, ItCall.packetExecAll dbg true .s8 p (List.replicate m .next) 0 =
          .ok (ItCall.listExecAll true (List.replicate m .next) l) ∧
        ItCall.packetExecAll dbg false .s8 p (List.replicate m .next ++ [.nth j]) 0 =
          .ok (ItCall.listExecAll false (List.replicate m .next ++ [.nth j]) l) := by
  obtain ⟨hA, hp, w, tb, tp, rfl, rfl⟩ := accepted_packet h
  rw [fieldAt_cons] at hn
  have hn : field w 12 4 = n := Option.some.inj hn
  have F : Packet.Frame dbg .s8 (w :: tp) (n - 1) := by
    refine ⟨?_, ?_, by show n - 1 ≤ 13; omega⟩
    · rw [hp]
      have := hA.len
      simp only [List.length_take, List.length_append, List.length_replicate]
      show min 4 (_ + 4) = 4
      omega
    · show (usub (U32.nibble w 3).toNat 1 >>= fun n =>
        if dbg && decide (n > 13) then Res.panic else pure n) = _
      rw [Packet.size_nibble, hn]
      unfold usub
      rw [if_pos h1]
      show (if dbg && decide (n - 1 > 13) then Res.panic else pure (n - 1)) = _
      rw [if_neg (by simp; omega)]; rfl
  refine ⟨_, F.bytes, ?_, fun m j => ⟨?_, ?_⟩⟩
  · rw [F.len (Nat.zero_le _)]; simp [Packet.payloadOf]
  · exact F.run_next m 0 (Nat.zero_le _)
  · exact F.run_next_nth m j 0

example : PacketKind.sysex8.tryFrom [0x50040001, 0x02030000, 0, 0] =
      .ok [0x50040001, 0x02030000, 0, 0] ∧
    ItCall.packetExecAll true true .s8 [0x50040001, 0x02030000, 0, 0] [.next, .next] 0 =
      .ok [(some 1, some 2), (some 2, some 1)] := by decide +kernel

/-- Calls that also ask for `len()` return the same items. -/
theorem packetExecAll_without_len {dbg : Bool} {k : Sx} {p : Buf .ump} (m : Nat) :
    ∀ (i : Nat) (l : List k.Byte),
    ItCall.packetExecAll dbg true k p (List.replicate m .next) i =
      .ok (ItCall.listExecAll true (List.replicate m .next) l) →
    ItCall.packetExecAll dbg false k p (List.replicate m .next) i =
      .ok (ItCall.listExecAll false (List.replicate m .next) l) := by
  induction m with
  | zero => intro i l _; rfl
  | succ m ih =>
    intro i l h
    rw [List.replicate_succ] at h ⊢
    simp only [ItCall.packetExecAll] at h ⊢
    cases e : Packet.next dbg k p i with
    | ok x =>
      obtain ⟨v, i'⟩ := x
      rw [e] at h
      simp only [Res.ok_bind, ItCall.packetLen, if_true] at h ⊢
      cases e1 : Packet.len dbg k p i' with
      | ok n =>
        rw [e1] at h
        simp only [Res.ok_bind, Res.pure_eq] at h
        cases e2 : ItCall.packetExecAll dbg true k p (List.replicate m .next) i' with
        | ok y =>
          rw [e2] at h
          have h := Res.ok.inj h
          simp only [ItCall.listExecAll, List.cons.injEq, Prod.mk.injEq] at h
          rw [ih i' _ (e2.trans (congrArg Res.ok h.2))]
          simp only [ItCall.listExecAll, h.1.1]
          rfl
        | err y => rw [e2] at h; cases h
        | panic => rw [e2] at h; cases h
      | err n => rw [e1] at h; cases h
      | panic => rw [e1] at h; cases h
    | err x => rw [e] at h; cases h
    | panic => rw [e] at h; cases h

/-- `collect` makes the calls of `next` up to the first `None`. -/
theorem collect_of_next {dbg : Bool} {k : Sx} {p : Buf .ump} (l : List k.Byte) : ∀ (i fuel : Nat),
    (∀ m, ItCall.packetExecAll dbg false k p (List.replicate m .next) i =
      .ok (ItCall.listExecAll false (List.replicate m .next) l)) →
    l.length < fuel → Packet.collect dbg k p fuel i = .ok l := by
  induction l with
  | nil =>
    intro i fuel h hf
    match fuel, hf with
    | fuel + 1, _ =>
      have h1 := h 1
      rw [show List.replicate 1 ItCall.next = [.next] from rfl] at h1
      simp only [ItCall.packetExecAll] at h1
      rw [Packet.collect]
      cases e : Packet.next dbg k p i with
      | ok x =>
        rw [e] at h1
        obtain ⟨v, i'⟩ := x
        cases v with
        | none => rfl
        | some v => cases h1
      | err x => rw [e] at h1; cases h1
      | panic => rw [e] at h1; cases h1
  | cons a l ih =>
    intro i fuel h hf
    match fuel, hf with
    | fuel + 1, hf =>
      have h1 := h 1
      rw [show List.replicate 1 ItCall.next = [.next] from rfl] at h1
      simp only [ItCall.packetExecAll] at h1
      rw [Packet.collect]
      cases e : Packet.next dbg k p i with
      | ok x =>
        rw [e] at h1
        obtain ⟨v, i'⟩ := x
        cases v with
        | none => cases h1
        | some v =>
          have hv : v = a := by
            have := Res.ok.inj h1
            simp only [ItCall.listExecAll, ItCall.apply] at this
            simpa using this
          subst hv
          have hr := ih i' fuel (fun m => by
            have h2 := h (m + 1)
            rw [List.replicate_succ] at h2
            simp only [ItCall.packetExecAll, e, Res.ok_bind] at h2
            change (ItCall.packetExecAll dbg false k p (List.replicate m .next) i' >>= _) = _ at h2
            cases e2 : ItCall.packetExecAll dbg false k p (List.replicate m .next) i' with
            | ok y =>
              rw [e2] at h2
              have := Res.ok.inj h2
              simp only [ItCall.listExecAll, ItCall.apply, List.cons.injEq] at this
              rw [this.2]; rfl
            | err y => rw [e2] at h2; cases h2
            | panic => rw [e2] at h2; cases h2) (by simpa using hf)
          simp only [Res.ok_bind, hr]
          rfl
      | err x => rw [e] at h1; cases h1
      | panic => rw [e] at h1; cases h1

/-- C34: collecting the payload of an accepted sysex packet gives the bytes the packet declares.
(`fuel` bounds the number of calls.  Missing: sysex8 packets with size field 0 or 15, for which
the code panics, see the violation.) -/
theorem C34_collect_partial (dbg : Bool) (k : Sx) (b p : Buf .ump)
    (h : (match k with | .s7 => PacketKind.sysex7 | .s8 => .sysex8).tryFrom b = .ok p) (n : Nat)
    (hn : fieldAt b 0 12 4 = some n) (h8 : k = .s8 → 1 ≤ n ∧ n ≤ 14) {fuel : Nat} (hf : 14 ≤ fuel) :
    ∃ l, Packet.collect dbg k p fuel 0 = .ok l ∧
      l.map BitVec.toNat = k.layout.packetBytes p 0 (match k with | .s7 => n | .s8 => n - 1) := by
  cases k with
  | s7 =>
    obtain ⟨s, l, h1, h2, _, h4⟩ := C34_sysex7_payload_partial dbg b p h
    rw [hn] at h1
    cases h1
    refine ⟨l, collect_of_next l 0 fuel (fun m => (h4 _).1) ?_, h2⟩
    obtain ⟨hA, -⟩ := accepted_packet h
    obtain ⟨s', h5, h6⟩ := hA.size rfl
    rw [hn] at h5
    cases h5
    have := congrArg List.length h2
    rw [List.length_map] at this
    simp only [SysexLayout.packetBytes, List.length_map, List.length_range] at this
    omega
  | s8 =>
    obtain ⟨h1, h14⟩ := h8 rfl
    obtain ⟨l, h2, h3, h4⟩ := C34_sysex8_payload_partial dbg b p h n hn h1 h14
    have hlen := congrArg List.length h2
    rw [List.length_map] at hlen
    simp only [SysexLayout.packetBytes, List.length_map, List.length_range] at hlen
    exact ⟨l, collect_of_next l 0 fuel
      (fun m => packetExecAll_without_len _ _ _ (h4 m 0).1) (by omega), h2⟩

example : Packet.collect true .s8 [0x50040001, 0x02030000, 0, 0] 14 0 = .ok [1, 2, 3] := by
  decide +kernel

/-- C34 is violated by the payload iterators of the packets.  Sysex7: `len()` after an `nth` past
the end panics.  Sysex8: `nth(0)` returns the same byte again and again; packets with size
field 0 are accepted and any use of their payload panics; so it does, with debug assertions,
for the packets whose status is `UnexpectedEnd(Invalid)`. -/
theorem C34_violation :
    (∃ b : Buf .ump, PacketKind.sysex7.tryFrom b = .ok b ∧
      ItCall.packetExecAll false true .s7 b [.nth 4] 0 = .panic) ∧
    (∃ b : Buf .ump, PacketKind.sysex8.tryFrom b = .ok b ∧
      ItCall.packetExecAll true true .s8 b [.nth 0, .nth 0] 0 =
        .ok [(some 1, some 2), (some 1, some 2)]) ∧
    (∃ b : Buf .ump, PacketKind.sysex8.tryFrom b = .ok b ∧
      ∀ dbg, Packet.next dbg .s8 b 0 = .panic ∧ Packet.len dbg .s8 b 0 = .panic) ∧
    (∃ b : Buf .ump, PacketKind.sysex8.tryFrom b = .ok b ∧
      Packet.sysexStatus .s8 b = .ok (.unexpectedEnd false) ∧
      Packet.next true .s8 b 0 = .panic) :=
  ⟨⟨[0x30020102, 0], by decide +kernel⟩, ⟨[0x50030001, 0x02000000, 0, 0], by decide +kernel⟩,
   ⟨[0x50000001, 0, 0, 0], by decide +kernel⟩, ⟨[0x503F0000, 0, 0, 0], by decide +kernel⟩⟩

/-! ## C33: the packets `packets()` yields -/

/-- Header table: the packets of fixed-size messages. -/
theorem packet_table : ∀ e ∈ umpTable, ∀ d, e.1 = .fixed d →
    d = Msg.streamFunctionBlockDiscovery ∨
      ∃ kind ∈ [PacketKind.utility, .systemCommon, .channelVoice1, .channelVoice2, .flexData,
        .umpStream], kind.code = e.2.type ∧ kind.words = d.umpSize := by
  have : (umpTable.all fun e => match e.1 with
    | .fixed d => decide (d = Msg.streamFunctionBlockDiscovery) ||
      [PacketKind.utility, .systemCommon, .channelVoice1, .channelVoice2, .flexData,
        .umpStream].any fun kind => decide (kind.code = e.2.type ∧ kind.words = d.umpSize)
    | _ => true) = true := by decide +kernel
  intro e he d hd
  have := List.all_eq_true.mp this e he
  rw [hd] at this
  simp only [Bool.or_eq_true, decide_eq_true_eq, List.any_eq_true] at this
  exact this

/-- The chunks are packets of one kind. -/
theorem chunk_packets {kind : PacketKind} {ps : List (Buf .ump)}
    (hl : ∀ c ∈ ps, c.length = kind.words)
    (ht : ∀ (j : Nat) c, ps[j]? = some c → fieldAt c 0 0 4 = some kind.code)
    (hs : kind = .sysex7 ∨ kind = .sysex8 → ∀ (j : Nat) c, ps[j]? = some c →
      ∃ s, fieldAt c 0 8 4 = some s ∧ s ≤ 3)
    (hz : kind = .sysex7 → ∀ (j : Nat) c, ps[j]? = some c → ∃ s, fieldAt c 0 12 4 = some s ∧ s ≤ 6) :
    ∀ c ∈ ps, Packet.tryFrom c = .ok (kind, c) := by
  intro c hc
  obtain ⟨j, hj⟩ := List.mem_iff_getElem?.mp hc
  have hle : kind.least ≤ kind.words := by cases kind <;> decide
  have hA : kind.Accepts c :=
    ⟨by rw [hl c hc]; exact hle, ht j c hj, fun h => hs h j c hj, fun h => hz h j c hj⟩
  rw [(C34_packet_accepts_exactly c).1 kind hA, List.take_append_of_le_length (by rw [hl c hc]; omega),
    List.take_of_length_le (by rw [hl c hc]; omega)]

theorem statusCode_le (n j : Nat) : statusCode n j ≤ 3 := by
  unfold statusCode
  split
  · omega
  · split
    · omega
    · split <;> omega

/-- The chunks of `packets()` of an accepted message are packets of one kind. -/
theorem accepted_chunks (b b' : Buf .ump) (k : UmpKind)
    (hok : UmpMessage.tryFrom b = .ok (k, b')) (hc : k.Complete b)
    (hf : k ≠ .fixed Msg.streamFunctionBlockDiscovery) :
    ∃ d ps h, ∃ kind : PacketKind, UmpMessage.data (k, b') = .ok d ∧
      UmpMessage.packets (k, b') = .ok ps ∧ (k, h) ∈ umpTable ∧ ps.flatten = d ∧
      kind.code = h.type ∧ fieldAt b 0 0 4 = some h.type ∧
      (∀ c ∈ ps, c.length = k.packetWords) ∧
      ∀ c ∈ ps, Packet.tryFrom c = .ok (kind, c) := by
  obtain ⟨d, ps, h1, h2, h3, h4, h5, h6⟩ := C33_ump_message_packets_partial b b' k hok hc
  obtain ⟨rfl, hk, h, he, ho⟩ := C10_ump_variant b b' k hok
  have key : ∀ {kind : PacketKind}, kind.code = h.type → kind.words = k.packetWords →
      (∀ c ∈ ps, Packet.tryFrom c = .ok (kind, c)) →
      ∃ d ps h, ∃ kind : PacketKind, UmpMessage.data (k, b') = .ok d ∧
        UmpMessage.packets (k, b') = .ok ps ∧ (k, h) ∈ umpTable ∧ ps.flatten = d ∧
        kind.code = h.type ∧ fieldAt b' 0 0 4 = some h.type ∧
        (∀ c ∈ ps, c.length = k.packetWords) ∧
        ∀ c ∈ ps, Packet.tryFrom c = .ok (kind, c) :=
    fun {kind} e1 _ e3 => ⟨d, ps, h, kind, h1, h4, he, h6, e1, ho.1, h5, e3⟩
  cases k with
  | fixed dd =>
    rcases packet_table _ he dd rfl with hT | ⟨kind, hm, e1, e2⟩
    · exact absurd (congrArg UmpKind.fixed hT) hf
    · have hns : kind ≠ .sysex7 ∧ kind ≠ .sysex8 := by
        constructor <;> intro e <;> rw [e] at hm <;> simp at hm
      refine key e1 e2 (chunk_packets (fun c hc => by rw [e2]; exact h5 c hc) ?_
        (fun h => by rcases h with h | h; exact absurd h hns.1; exact absurd h hns.2)
        (fun h => absurd h hns.1))
      have hd := (table_demands _ he dd rfl).1
      obtain ⟨p, q1, -⟩ := C33_fixed_packets hd b' ((tryFrom_iff dd .ump b').mp hk).1
      have : ps = [p] := Res.ok.inj (h4.symm.trans q1)
      intro j c hj
      have hpos : 0 < UmpKind.packetWords (.fixed dd) := by
        show 0 < dd.umpSize
        rw [← e2]; cases kind <;> decide
      rw [chunk_field h2 hpos h5 h6 hj, e1]
      rw [this] at hj
      cases j with
      | succ j => cases hj
      | zero => exact ho.1
  | sysex s =>
    obtain ⟨g, sizes, M, hlen, l, _, _, _, m3⟩ := C23_payload_of_accepted s b' hk hc
    have hd : d = b'.take (s.layout.words * sizes.length) := Res.ok.inj (h1.symm.trans m3)
    have hpos : 0 < s.layout.words := by cases s <;> decide
    have hj : ∀ {j : Nat} {c : Buf .ump}, ps[j]? = some c → j < sizes.length := by
      intro j c hj
      have e1 : ps.flatten[s.layout.words * j + 0]? = c[0]? := flatten_at h5 hj hpos
      rw [h6] at e1
      have hcl : c.length = s.layout.words := h5 c (List.mem_of_getElem? hj)
      rw [List.getElem?_eq_getElem (by omega : 0 < c.length)] at e1
      obtain ⟨hlt, -⟩ := List.getElem?_eq_some_iff.mp e1
      rw [hd, List.length_take] at hlt
      have hlt : s.layout.words * j < s.layout.words * sizes.length := by omega
      exact Nat.lt_of_mul_lt_mul_left hlt
    have hst : ∀ (j : Nat) c, ps[j]? = some c → ∃ s, fieldAt c 0 8 4 = some s ∧ s ≤ 3 := fun j c h =>
      ⟨_, by rw [chunk_field h2 hpos h5 h6 h]; exact M.status j (hj h), statusCode_le ..⟩
    cases s with
    | s7 =>
      have hT : h.type = 3 := by rw [show h = _ from table_other _ he]; rfl
      refine key (kind := .sysex7) hT.symm rfl (chunk_packets (fun c hc => h5 c hc) ?_
        (fun _ => hst) (fun _ j c h => ?_))
      · intro j c h
        rw [chunk_field h2 hpos h5 h6 h]; exact M.type j (hj h)
      · obtain ⟨n, hn⟩ : ∃ n, sizes[j]? = some n := ⟨_, List.getElem?_eq_getElem (hj h)⟩
        exact ⟨_, by rw [chunk_field h2 hpos h5 h6 h]; exact M.size j n hn,
          M.small n (List.mem_of_getElem? hn)⟩
    | s8 =>
      have hT : h.type = 5 := by rw [show h = _ from table_other _ he]; rfl
      refine key (kind := .sysex8) hT.symm rfl (chunk_packets (fun c hc => h5 c hc) ?_
        (fun _ => hst) (fun h => by cases h))
      intro j c h
      rw [chunk_field h2 hpos h5 h6 h]; exact M.type j (hj h)
  | flexText t =>
    have hT : h.type = 13 := by rw [show h = _ from (table_other _ he).2]
    obtain ⟨d', ps', q1, q2, q3, q4, q5, q6⟩ := C06_flex_text_data_partial t b' hk hc
    have e : ps' = ps := Res.ok.inj (q3.symm.trans h4)
    refine key (kind := .flexData) hT.symm rfl (chunk_packets (fun c hc => h5 c hc) ?_
      (fun h => by rcases h with h | h <;> cases h) (fun h => by cases h))
    intro j c hj
    rw [chunk_field h2 (show 0 < UmpKind.packetWords (.flexText t) from (by decide : 0 < 4)) h5 h6 hj]
    refine run_type (k := 4) (by decide) ?_
    show j < (FlexText.run b').length
    rw [← q4, e]
    exact (List.getElem?_eq_some_iff.mp hj).1
  | streamText t =>
    have hT : h.type = 15 := by rw [show h = _ from (table_other _ he).2]
    have ht := (table_other _ he).1
    obtain ⟨d', ps', q1, q2, q3, q4, q5, q6⟩ := C06_stream_text_data_partial t ht b' hk hc
    have e : ps' = ps := Res.ok.inj (q3.symm.trans h4)
    refine key (kind := .umpStream) hT.symm rfl (chunk_packets (fun c hc => h5 c hc) ?_
      (fun h => by rcases h with h | h <;> cases h) (fun h => by cases h))
    intro j c hj
    rw [chunk_field h2 (show 0 < UmpKind.packetWords (.streamText t) from (by decide : 0 < 4)) h5 h6 hj]
    refine run_type (k := 4) (by decide) ?_
    show j < (StreamText.run b').length
    rw [← q4, e]
    exact (List.getElem?_eq_some_iff.mp hj).1

/-- C33: whatever sequence of `next` and `nth` calls is made on `packets()` of a parsed message,
the packets returned are the consecutive parts of `data()`, whole and unchanged, of the kind
that belongs to the message type; `len()` counts those to come; no call panics.  Missing: a
truncated last packet and `FunctionBlockDiscovery` (see the violations). -/
theorem C33_packet_values_partial (b b' : Buf .ump) (k : UmpKind)
    (hok : UmpMessage.tryFrom b = .ok (k, b')) (hc : k.Complete b)
    (hf : k ≠ .fixed Msg.streamFunctionBlockDiscovery) :
    ∃ d ps h, ∃ items : List Packet, UmpMessage.data (k, b') = .ok d ∧
      UmpMessage.packets (k, b') = .ok ps ∧ (k, h) ∈ umpTable ∧
      (items.map Prod.snd).flatten = d ∧
      (∀ p ∈ items, p.1.code = h.type ∧ p.2.length = k.packetWords) ∧
      ∀ cs : List ItCall, ItCall.packetsExecAll cs ps = .ok (ItCall.packetListAll cs items) := by
  obtain ⟨d, ps, h, kind, h1, h4, he, h6, e1, -, h5, e3⟩ := accepted_chunks b b' k hok hc hf
  refine ⟨d, ps, h, ps.map fun c => (kind, c), h1, h4, he, ?_, ?_, fun cs => packets_run cs e3⟩
  · rw [List.map_map]
    show (ps.map id).flatten = d
    rw [List.map_id, h6]
  · intro p hp
    obtain ⟨c, hc, rfl⟩ := List.mem_map.mp hp
    exact ⟨e1, h5 c hc⟩

example : UmpMessage.tryFrom [0x30160001, 0x02030405, 0x30310600, 0] =
      .ok (.sysex .s7, [0x30160001, 0x02030405, 0x30310600, 0]) ∧
    (UmpMessage.packets (.sysex .s7, [0x30160001, 0x02030405, 0x30310600, 0])).bind
      (ItCall.packetsExecAll [.nth 1, .next]) =
      .ok [(some (.sysex7, [0x30310600, 0]), 0), (none, 0)] := by decide +kernel

/-- C33 is violated by `FunctionBlockDiscovery`: `data()` is one word, the packet has four. -/
theorem C33_function_block_discovery_violation :
    ∃ b : Buf .ump, UmpMessage.tryFrom b = .ok (.fixed Msg.streamFunctionBlockDiscovery, b) ∧
      UmpMessage.data (.fixed Msg.streamFunctionBlockDiscovery, b) = .ok [0xF0100103] ∧
      (UmpMessage.packets (.fixed Msg.streamFunctionBlockDiscovery, b)).bind
        (ItCall.packetsExecAll [.next, .next]) =
        .ok [(some (.umpStream, [0xF0100103, 0, 0, 0]), 0), (none, 0)] :=
  ⟨[0xF0100103, 0, 0, 0], by decide +kernel⟩

end Midi2
