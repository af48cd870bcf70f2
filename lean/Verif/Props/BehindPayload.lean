import Verif.Lemmas.BehindPayload
import Verif.Props.BehindSysex
import Verif.Props.Sysex

/-!
# C77: what setting a payload at the front of an array does to the rest of it
-/

namespace Midi2

open Sx

/-- C77, `try_set_payload` on a system exclusive message at the front of an array of any content,
from data whose size hint is right: if there is room, the message then holds the data, and not a
word behind `data()` is changed. -/
theorem C77_sysex_set_payload_partial (k : Sx) (dbg : Bool) (b : Buf .ump) (g : BitVec 4)
    (hg : Sx.group b = .ok g) (ht : dbg = true → k.layout.Tidy k.layout.words b) (d : Src k.Byte)
    (he : d.upper.getD d.lower = d.items.length)
    (room : k.layout.wireLength d.items.length ≤ 4 * b.length) :
    ∃ b' m, (k.ops dbg .fixed).trySetPayload b d = .ok (b', none) ∧ k.Holds b' g d.items ∧
      k.data b' = .ok m ∧ 4 * m.length = k.layout.wireLength d.items.length ∧
      b'.length = b.length ∧ b' = m ++ b.drop m.length := by
  rw [wireLength_eq] at room ⊢
  have hl : k.stride * k.count d.items.length ≤ b.length := by omega
  have hb : k.stride ≤ b.length := Nat.le_trans (by
    have := Nat.mul_le_mul_left k.stride (k.count_pos d.items.length); omega) hl
  have hgw := group_word hg
  obtain ⟨b', e, S⟩ := (trySetPayload_fixed k (inv_true k) hb hgw trivial
    (fun e => by have := ht e; rw [words_eq] at this; exact tidyFrom_iff.mpr this) d).1 hl
  have he : d.estimate = d.items.length := by
    rw [← he]; unfold Src.estimate; cases d.upper <;> rfl
  have K := trySetPayload_keeps k dbg d he hl hgw e
  have hm : (b'.take (k.stride * k.count d.items.length)).length =
      k.stride * k.count d.items.length := by
    rw [List.length_take, K.1]; omega
  refine ⟨b', _, e, S.holds, S.packed.data_eq, by rw [hm], K.1, ?_⟩
  rw [hm]
  conv => lhs; rw [← List.take_append_drop (k.stride * k.count d.items.length) b']
  congr 1
  refine eq_of_octetAt (by rw [List.length_drop, List.length_drop, K.1]) fun a ha => ?_
  have e1 : ∀ c : Buf .ump, octetAt (c.drop (k.stride * k.count d.items.length)) a =
      octetAt c (4 * (k.stride * k.count d.items.length) + a) := by
    intro c
    unfold octetAt
    rw [List.getElem?_drop, show (4 * (k.stride * k.count d.items.length) + a) / 4 =
      k.stride * k.count d.items.length + a / 4 by omega,
      show (4 * (k.stride * k.count d.items.length) + a) % 4 = a % 4 by omega]
  rw [e1, e1]
  exact K.2 _ (Nat.le_trans (k.span_le _) (by omega))

-- Eight bytes in front of a note on: the note on stays.
example : (Sx.s7.ops true .fixed).trySetPayload [0x34000000, 0, 7, 7, 0x20903C40]
      ⟨[1, 2, 3, 4, 5, 6, 7, 8], 8, some 8⟩ =
    .ok ([0x34160102, 0x03040506, 0x34320708, 0, 0x20903C40], none) := by decide +kernel

example : ∃ b' m, (Sx.s8.ops true .fixed).trySetPayload [0x54010000, 0, 0, 0, 0x50310000, 1, 2, 3]
      ⟨[9], 1, some 1⟩ = .ok (b', none) ∧ Sx.s8.Holds b' 4 [9] ∧ Sx.s8.data b' = .ok m ∧
    4 * m.length = Sx.s8.layout.wireLength 1 ∧ b'.length = 8 ∧ b' = m ++ [0x50310000, 1, 2, 3] := by
  obtain ⟨b', m, h1, h2, h3, h4, h5, h6⟩ := C77_sysex_set_payload_partial .s8 true
    [0x54010000, 0, 0, 0, 0x50310000, 1, 2, 3] 4 (by decide) (fun _ => by
      intro i h1 h2
      simp only [List.length_cons, List.length_nil] at h2
      have : i = 1 := by
        have : Sx.s8.layout.words = 4 := rfl
        omega
      subst this
      unfold SysexLayout.PartlyFilled
      decide +kernel) ⟨[9], 1, some 1⟩ rfl (by decide +kernel)
  have : m.length = 4 := by
    have : Sx.s8.layout.wireLength 1 = 16 := by decide +kernel
    have h4 : 4 * m.length = Sx.s8.layout.wireLength 1 := h4
    omega
  rw [this] at h6
  exact ⟨b', m, h1, h2, h3, h4, h5, h6⟩

/-- C77: with a size hint which is too large, `try_set_payload` writes behind `data()`: an upper
bound of 12 for a single byte makes a packet of the two words behind, which were a note on. -/
theorem C77_size_hint_violation :
    (Sx.s7.ops false .fixed).trySetPayload ([0x30000000, 0] ++ [0x40903C00, 0x80000000])
      ⟨[1], 0, some 12⟩ = .ok ([0x30010100, 0] ++ [0x30363C00, 0x80000000], none) ∧
    Sx.s7.data ([0x30010100, 0] ++ [0x30363C00, 0x80000000]) = .ok [0x30010100, 0] := by decide +kernel

end Midi2
