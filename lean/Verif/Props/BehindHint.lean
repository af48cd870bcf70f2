import Verif.Lemmas.BehindSpill
import Verif.Props.BehindPayload

/-!
# C77: setting a payload at the front of an array, with any size hint and whether or not it fits
-/

namespace Midi2

open Sx

/-- C77, `try_set_payload` on a system exclusive message at the front of an array of any content,
from data with any size hint: if there is room, the message then holds the data, and the words behind
`data()` are kept except for the packets the largest estimate would have needed, which have got the
headers and the padding of a message of that many bytes. -/
theorem C77_sysex_set_payload_exactly (k : Sx) (dbg : Bool) (b : Buf .ump) (g : BitVec 4)
    (hg : Sx.group b = .ok g) (ht : dbg = true → k.layout.Tidy k.layout.words b) (d : Src k.Byte)
    (room : k.layout.wireLength d.items.length ≤ 4 * b.length) :
    ∃ b' m, (k.ops dbg .fixed).trySetPayload b d = .ok (b', none) ∧ k.Holds b' g d.items ∧
      k.data b' = .ok m ∧ 4 * m.length = k.layout.wireLength d.items.length ∧
      b'.take m.length = m ∧
      RoomBehind k.layout g.toNat (d.madeRoomFor (b.length / k.layout.words * k.layout.capacity)) m.length
        b b' := by
  rw [wireLength_eq] at room ⊢
  have hl : k.stride * k.count d.items.length ≤ b.length := by omega
  have hb : k.stride ≤ b.length := Nat.le_trans (by
    have := Nat.mul_le_mul_left k.stride (k.count_pos d.items.length); omega) hl
  have hgw := group_word hg
  obtain ⟨b', e, S⟩ := (trySetPayload_fixed k (inv_true k) hb hgw trivial
    (fun e => by have := ht e; rw [words_eq] at this; exact tidyFrom_iff.mpr this) d).1 hl
  have K := trySetPayload_stamped k dbg d hl hgw e
  have hlen : b'.length = b.length := S.whole.fixed _ rfl
  have hm : (b'.take (k.stride * k.count d.items.length)).length =
      k.stride * k.count d.items.length := by
    rw [List.length_take, hlen]; omega
  have hr : k.stride * k.count (d.madeRoomFor (b.length / k.stride * k.cap)) ≤ b.length := by
    rw [← k.limit_iff hb]
    unfold Src.madeRoomFor
    exact Nat.min_le_left _ _
  refine ⟨b', _, e, S.holds, S.packed.data_eq, by rw [hm], by rw [hm], ?_⟩
  rw [hm, words_eq, capacity_eq]
  exact K.behind (k.count_pos _) hr

-- One byte with a size hint of twelve: the second packet, a note on, becomes the end of a message
-- with six bytes.
example : (⟨[1], 0, some 12⟩ : Src (BitVec 7)).madeRoomFor (4 / 2 * 6) = 12 ∧
    Sx.s7.layout.fill 12 = [6, 6] ∧
    (Sx.s7.ops false .fixed).trySetPayload [0x30000000, 0, 0x40903C00, 0x80000000]
      ⟨[1], 0, some 12⟩ = .ok ([0x30010100, 0, 0x30363C00, 0x80000000], none) := by decide +kernel

-- Seven bytes without a size hint: room is made for 1, 3, 7 bytes, so nothing is written behind.
example : (⟨[1, 2, 3, 4, 5, 6, 7], 0, none⟩ : Src (BitVec 7)).madeRoomFor (6 / 2 * 6) = 7 ∧
    (Sx.s7.ops true .fixed).trySetPayload [0x35000000, 0, 1, 2, 0x40903C00, 0x80000000]
      ⟨[1, 2, 3, 4, 5, 6, 7], 0, none⟩ =
    .ok ([0x35160102, 0x03040506, 0x35310700, 0, 0x40903C00, 0x80000000], none) := by decide +kernel

-- Twelve bytes with a size hint of six: room is made for 6, 7, 9 and 13 bytes, so the packet behind
-- the message becomes the end of a message of 13 bytes, with zeros behind its last byte.
example : (⟨List.replicate 12 9, 6, none⟩ : Src (BitVec 7)).madeRoomFor (6 / 2 * 6) = 13 ∧
    (Sx.s7.ops true .fixed).trySetPayload [0x35000000, 0, 1, 2, 0x40903C00, 0x80000000]
      ⟨List.replicate 12 9, 6, none⟩ =
    .ok ([0x35160909, 0x09090909, 0x35360909, 0x09090909, 0x35313C00, 0], none) := by decide +kernel

/-- C77, `try_set_payload` with data that does not fit, whatever the size hint: the call fails, the
message is empty, and all whole packets of the array behind its packet have been made packets of a
message with the first bytes of the data. -/
theorem C77_sysex_set_payload_overflow_exactly (k : Sx) (dbg : Bool) (b : Buf .ump) (g : BitVec 4)
    (hg : Sx.group b = .ok g) (ht : dbg = true → k.layout.Tidy k.layout.words b) (d : Src k.Byte)
    (hb : k.layout.words ≤ b.length)
    (room : 4 * b.length < k.layout.wireLength d.items.length) :
    ∃ b', (k.ops dbg .fixed).trySetPayload b d = .ok (b', some .bufferOverflow) ∧
      k.Holds b' g [] ∧ k.data b' = .ok (b'.take k.layout.words) ∧
      SpilledBehind k.layout g.toNat (d.items.map BitVec.toNat) b b' := by
  rw [wireLength_eq] at room
  rw [words_eq] at hb ⊢
  have hl : b.length < k.stride * k.count d.items.length := by omega
  have hgw := group_word hg
  obtain ⟨b', e, S⟩ := (trySetPayload_fixed k (inv_true k) hb hgw trivial
    (fun e => by have := ht e; rw [words_eq] at this; exact tidyFrom_iff.mpr this) d).2 hl
  obtain ⟨s, C, h1, h2, P, M, R⟩ := trySetPayload_spilled k dbg d hb hl hgw e
  refine ⟨b', e, S.holds, ?_, SpilledBehind.of hb h1 h2 P M R⟩
  rw [S.packed.data_eq]
  show _ = Res.ok (b'.take k.stride)
  rw [show k.count ([] : List k.Byte).length = 1 from rfl, Nat.mul_one]

/-- C77: thirteen bytes for two packets of six: the note on behind the message is lost, though nothing
was stored. -/
theorem C77_overflow_violation :
    (Sx.s7.ops false .fixed).trySetPayload ([0x30000000, 0] ++ [0x40903C00, 0x80000000, 5])
      ⟨[1, 2, 3, 4, 5, 6, 7, 8, 9, 10, 11, 12, 13], 13, some 13⟩ =
    .ok ([0x30000102, 0x03040506] ++ [0x30360708, 0x890A0B0C, 5], some .bufferOverflow) := by
  decide +kernel

end Midi2
