import Verif.Props.Packet
import Verif.Props.Reparse

/-!
# C55: the packets of a message say what the message says
-/

namespace Midi2

/-- The packets of a kind of system exclusive message. -/
def Sx.packetKind : Sx → PacketKind
  | .s7 => .sysex7
  | .s8 => .sysex8

theorem Packet.frame_of (dbg : Bool) (k : Sx) {p : Buf .ump} {s : Nat} (hl : p.length = k.layout.words)
    (hs : fieldAt p 0 12 4 = some (s + k.layout.extra)) (hc : s ≤ k.layout.capacity) :
    Packet.Frame dbg k p s := by
  cases p with
  | nil => cases k <;> cases hl
  | cons w t =>
    rw [fieldAt_cons] at hs
    have hs := Option.some.inj hs
    cases k with
    | s7 =>
      have hc : s ≤ 6 := hc
      have hs : field w 12 4 = s := hs
      refine ⟨hl, ?_, hc⟩
      show (usub (U32.nibble w 3).toNat 0 >>= fun n =>
        if dbg && decide (n > 6) then Res.panic else pure n) = _
      rw [Packet.size_nibble, hs]
      show (if dbg && decide (s > 6) then Res.panic else pure s) = _
      rw [if_neg (by simp; omega)]; rfl
    | s8 =>
      have hc : s ≤ 13 := hc
      have hs : field w 12 4 = s + 1 := hs
      refine ⟨hl, ?_, hc⟩
      show (usub (U32.nibble w 3).toNat 1 >>= fun n =>
        if dbg && decide (n > 13) then Res.panic else pure n) = _
      rw [Packet.size_nibble, hs]
      unfold usub
      rw [if_pos (by omega)]
      show (if dbg && decide (s > 13) then Res.panic else pure s) = _
      rw [if_neg (by simp; omega)]; rfl

theorem map_toNat_inj' {n : Nat} : ∀ {l l' : List (BitVec n)},
    l.map BitVec.toNat = l'.map BitVec.toNat → l = l'
  | [], [], _ => rfl
  | [], _ :: _, h => by cases h
  | _ :: _, [], h => by cases h
  | x :: l, y :: l', h => by
    rw [List.map_cons, List.map_cons] at h
    obtain ⟨h1, h2⟩ := List.cons.inj h
    rw [BitVec.eq_of_toNat_eq h1, map_toNat_inj' h2]

/-- The packet `j` of a slice reads as the slice does at its place. -/
theorem chunk_octet {b d : Buf .ump} (hd : d <+: b) {n : Nat} {ps : List (Buf .ump)}
    (hl : ∀ p ∈ ps, p.length = n) (hf : ps.flatten = d) {j : Nat} {c : Buf .ump}
    (hc : ps[j]? = some c) {a : Nat} (ha : a < 4 * n) : octetVal c a = octetVal b (4 * n * j + a) := by
  have h1 := flatten_at hl hc (i := a / 4) (by omega)
  have hcl : c.length = n := hl c (List.mem_of_getElem? hc)
  have h2 : c[a / 4]? = some (c[a / 4]'(by omega)) := List.getElem?_eq_getElem (by omega)
  rw [hf, h2] at h1
  obtain ⟨hlt, h4⟩ := List.getElem?_eq_some_iff.mp h1
  have h3 := hd.getElem hlt
  have e1 : (4 * n * j + a) / 4 = n * j + a / 4 := by
    rw [Nat.mul_assoc, Nat.mul_add_div (by omega)]
  have e2 : (4 * n * j + a) % 4 = a % 4 := by
    rw [Nat.mul_assoc, Nat.mul_add_mod]
  unfold octetVal fieldAt
  rw [e1, e2, h2, List.getElem?_eq_getElem (Nat.lt_of_lt_of_le hlt hd.length_le), ← h3, h4]

/-- C55 for `Sysex7` and `Sysex8`: the packets of an accepted message are accepted as packets,
have the group of the message (and the stream id), their statuses are those of a message of so
many packets, and going through their payloads one after the other gives the payload of the
message.  Missing: messages whose last packet is truncated, for which the code panics; and the
status of an empty last packet of `Sysex8`, see `C55_empty_end_violation`. -/
theorem C55_sysex_partial (k : Sx) (dbg : Bool) (b : Buf .ump) (h : k.tryFrom b = .ok b)
    (hu : k.layout.Untruncated b) :
    ∃ l ps, ∃ ls : List (List k.Byte), k.payloadList b = .ok l ∧ k.dataPackets b = .ok ps ∧
      ls.length = ps.length ∧ ls.flatten = l ∧
      ∀ (j : Nat) p q, ps[j]? = some p → ls[j]? = some q →
        k.packetKind.tryFrom p = .ok p ∧ Packet.group p = Sx.group b ∧
        (k = .s8 → Packet.streamId p = Sx.streamId b) ∧
        (∃ st, Packet.sysexStatus k p = .ok st ∧
          (statusOfCode (statusCode ps.length j) = some st ∨
            (k = .s8 ∧ ps.length ≠ 1 ∧ j + 1 = ps.length ∧ q = [] ∧ st = .unexpectedEnd true))) ∧
        Packet.len dbg k p 0 = .ok q.length ∧
        ∀ m, ItCall.packetExecAll dbg true k p (List.replicate m .next) 0 =
          .ok (ItCall.listExecAll true (List.replicate m .next) q) := by
  obtain ⟨g, sizes, M, hlen, l, h1, -, h3, -⟩ := C23_payload_of_accepted k b h hu
  obtain ⟨d, ps, e1, e2, e3, e4, e5, e6⟩ := C33_sysex_packets k b h hu
  have hd : d <+: b := by rw [e2]; exact List.take_prefix _ _
  have hps : ps.length = sizes.length := by rw [e4, hlen]
  have hA := (Sx.tryFrom_iff k b).mp h
  have hw : 0 < k.layout.words := by cases k <;> decide
  have hfld : ∀ {j : Nat} {p : Buf .ump} (x y : Nat), ps[j]? = some p →
      fieldAt p 0 x y = fieldAt b (k.layout.words * j) x y :=
    fun x y hp => chunk_field hd hw e5 e6 hp x y
  have hframe : ∀ {j : Nat} {p : Buf .ump} {s : Nat}, ps[j]? = some p → sizes[j]? = some s →
      Packet.Frame dbg k p s := by
    intro j p s hp hs
    refine Packet.frame_of dbg k (e5 p (List.mem_of_getElem? hp)) ?_
      (M.small s (List.mem_of_getElem? hs))
    rw [hfld 12 4 hp]; exact M.size j s hs
  refine ⟨l, ps, (List.zip ps sizes).map fun x => Packet.payloadOf k x.1 x.2, h1, e3, ?_, ?_, ?_⟩
  · rw [List.length_map, List.length_zip, hps, Nat.min_self]
  · apply map_toNat_inj'
    rw [h3, List.map_flatten, List.map_map]
    unfold SysexLayout.payload
    congr 1
    apply List.ext_getElem?
    intro j
    rw [List.getElem?_map, List.getElem?_map, List.getElem?_zipIdx]
    by_cases hj : j < sizes.length
    · obtain ⟨s, hs⟩ : ∃ s, sizes[j]? = some s := ⟨_, List.getElem?_eq_getElem hj⟩
      obtain ⟨p, hp⟩ : ∃ p, ps[j]? = some p := ⟨_, List.getElem?_eq_getElem (by omega)⟩
      have hz : (List.zip ps sizes)[j]? = some (p, s) := List.getElem?_zip_eq_some.mpr ⟨hp, hs⟩
      rw [hz, hs, Option.map_some, Option.map_some, Option.map_some]
      congr 1
      show (Packet.payloadOf k p s).map BitVec.toNat = k.layout.packetBytes b (0 + j) s
      have F := hframe hp hs
      rw [F.bytes, Nat.zero_add]
      unfold SysexLayout.packetBytes
      apply List.map_congr_left
      intro i hi
      have hi := List.mem_range.mp hi
      have hc := F.small
      rw [show 4 * k.layout.words * 0 + k.layout.first + i = k.layout.first + i by omega,
        chunk_octet hd e5 e6 hp (a := k.layout.first + i) (by
          cases k
          · have : s ≤ 6 := hc
            show 2 + i < 4 * 2; omega
          · have : s ≤ 13 := hc
            show 3 + i < 4 * 4; omega), Nat.add_assoc]
    · have hz : (List.zip ps sizes)[j]? = none := List.getElem?_eq_none (by
        rw [List.length_zip, hps, Nat.min_self]; omega)
      rw [hz, List.getElem?_eq_none (by omega)]; rfl
  · intro j p q hp hq
    have hj : j < sizes.length := by
      obtain ⟨h, -⟩ := List.getElem?_eq_some_iff.mp hp
      omega
    obtain ⟨s, hs⟩ : ∃ s, sizes[j]? = some s := ⟨_, List.getElem?_eq_getElem hj⟩
    have hz : (List.zip ps sizes)[j]? = some (p, s) := List.getElem?_zip_eq_some.mpr ⟨hp, hs⟩
    rw [List.getElem?_map, hz, Option.map_some] at hq
    cases hq
    have F := hframe hp hs
    have hwhole : k.layout.words * (j + 1) ≤ b.length :=
      Nat.le_trans (Nat.mul_le_mul_left _ hj) M.whole
    have hpl : p.length = k.layout.words := e5 p (List.mem_of_getElem? hp)
    have f0 := (hfld 0 4 hp).trans (M.type j hj)
    have f1 := (hfld 4 4 hp).trans (M.group j hj)
    have f2 := (hfld 8 4 hp).trans (M.status j hj)
    have f3 := (hfld 12 4 hp).trans (M.size j s hs)
    have g0 := M.group 0 (by omega)
    rw [Nat.mul_zero] at g0
    have hst : statusCode sizes.length j ≤ 3 := by
      unfold statusCode; split
      · omega
      · split
        · omega
        · split <;> omega
    have hacc : k.packetKind.tryFrom p = .ok p := by
      have hpk : k.packetKind.words = k.layout.words := by cases k <;> rfl
      have A : k.packetKind.Accepts p := by
        refine ⟨?_, ?_, fun _ => ⟨_, f2, hst⟩, fun h => ?_⟩
        · rw [hpl]; cases k <;> decide
        · rw [f0]; cases k <;> rfl
        · cases k with
          | s7 => exact ⟨_, f3, F.small⟩
          | s8 => cases h
      rw [(C34_typed_accepts_exactly _ p).1 A, hpk, ← hpl, List.take_left]
    have hpb : ∃ w t w' t', p = w :: t ∧ b = w' :: t' := by
      have : 0 < b.length := Nat.lt_of_lt_of_le
        (Nat.lt_of_lt_of_le hw (Nat.le_mul_of_pos_right k.layout.words (Nat.succ_pos j))) hwhole
      cases p with
      | nil => rw [List.length_nil] at hpl; omega
      | cons w t =>
        cases b with
        | nil => rw [List.length_nil] at this; omega
        | cons w' t' => exact ⟨w, t, w', t', rfl, rfl⟩
    have hgrp : Packet.group p = Sx.group b := by
      obtain ⟨w, t, w', t', rfl, rfl⟩ := hpb
      rw [fieldAt_cons] at f1 g0
      show Res.ok (U32.nibble w 1) = Res.ok (U32.nibble w' 1)
      rw [BitVec.eq_of_toNat_eq (x := U32.nibble w 1) (y := U32.nibble w' 1) (by
        rw [Packet.group_nibble, Packet.group_nibble, Option.some.inj f1, Option.some.inj g0])]
    refine ⟨hacc, hgrp, ?_, ?_, ?_, fun m => F.run_next m 0 (Nat.zero_le _)⟩
    · rintro rfl
      have hs8 := (hfld 16 8 hp).trans (hA.streams rfl j (by omega) hwhole)
      obtain ⟨w, t, w', t', rfl, rfl⟩ := hpb
      rw [fieldAt_cons, fieldAt_cons] at hs8
      show Res.ok (U32.octet w 2) = Res.ok (U32.octet w' 2)
      rw [BitVec.eq_of_toNat_eq (x := U32.octet w 2) (y := U32.octet w' 2) (by
        rw [octet_field w (i := 2) (by omega), octet_field w' (i := 2) (by omega)]
        exact Option.some.inj hs8)]
    · rw [hps]
      cases k with
      | s7 =>
        obtain ⟨st, c, h1, h2, h3⟩ := (C34_format p p).2.2 hacc
        rw [f2] at h2; cases h2
        exact ⟨st, h1, .inl h3⟩
      | s8 =>
        obtain ⟨st, c, n, i, h1, -, h2, h4, -, h5, h6, h7⟩ := C34_sysex8_status p p hacc
        rw [f2] at h2; cases h2
        rw [f3] at h4; cases h4
        refine ⟨st, h1, h7.imp id ?_⟩
        rintro ⟨v, rfl⟩
        cases v with
        | true =>
          obtain ⟨c3, n1, -⟩ := h5.mp rfl
          have hs0 : s = 0 := by
            have n1 : s + 1 = 1 := n1
            omega
          subst hs0
          unfold statusCode at c3
          refine ⟨rfl, ?_, ?_, rfl, rfl⟩ <;>
          · split at c3
            · omega
            · split at c3
              · omega
              · split at c3
                · assumption
                · omega
        | false =>
          obtain ⟨-, n1, -⟩ := h6.mp rfl
          have n1 : s + 1 = 15 := n1
          have : s ≤ 13 := F.small
          omega
    · have := F.len (Nat.zero_le s); rwa [List.drop_zero] at this

-- Eight bytes in two packets.
example : Sx.s7.tryFrom [0x3A160102, 0x03040506, 0x3A320708, 0] =
      .ok [0x3A160102, 0x03040506, 0x3A320708, 0] ∧
    Sx.s7.dataPackets [0x3A160102, 0x03040506, 0x3A320708, 0] =
      .ok [[0x3A160102, 0x03040506], [0x3A320708, 0]] ∧
    sysex7Layout.Untruncated [0x3A160102, 0x03040506, 0x3A320708, 0] := by
  refine ⟨by decide +kernel, by decide +kernel, ?_⟩
  show 2 * _ ≤ _
  decide +kernel

/-- C55 is violated by `Sysex8` messages whose last packet carries no bytes: the message is
accepted and complete, its last packet says that the message ended unexpectedly. -/
theorem C55_empty_end_violation :
    ∃ b p q : Buf .ump, Sx.s8.tryFrom b = .ok b ∧ Sx.s8.payloadList b = .ok [7] ∧
      Sx.s8.dataPackets b = .ok [p, q] ∧ Packet.sysexStatus .s8 p = .ok .start ∧
      Packet.sysexStatus .s8 q = .ok (.unexpectedEnd true) :=
  ⟨[0x50120007, 0, 0, 0, 0x50310000, 0, 0, 0], [0x50120007, 0, 0, 0], [0x50310000, 0, 0, 0],
   by decide +kernel⟩

end Midi2
