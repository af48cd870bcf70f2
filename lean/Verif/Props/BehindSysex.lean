import Verif.Lemmas.BehindSysex
import Verif.Props.Behind

/-!
# C77: what building a system exclusive message at the front of an array does to the rest of it
-/

namespace Midi2

/-- C77, system exclusive messages over words, completely: `try_new_with_buffer` on an array of any
content is refused exactly if there is no room for a packet; otherwise `data()` is the packet of the
empty message, and behind it exactly the headers of the packets of the same type that directly
follow are changed (`SysexBehind`). -/
theorem C77_sysex_exactly (k : Sx) (b : Buf .ump) :
    (b.length < k.layout.words → k.tryNewWithBuffer b = .err .bufferOverflow) ∧
    (k.layout.words ≤ b.length → ∃ x n, k.tryNewWithBuffer b = .ok x ∧
      k.data x = .ok (emptySysex k) ∧ RunBehind k.layout.words k.layout.type b n ∧
      SysexBehind k n b x) := by
  obtain ⟨h1, h2⟩ := C08_sysex_try_new_with_buffer k b
  refine ⟨h1, fun h => ?_⟩
  obtain ⟨x, e1, _, e3, _⟩ := h2 h
  rw [words_eq] at h ⊢
  have hinit : k.init (zeroPrefix b k.stride) = .ok x := by
    have := e1
    unfold Sx.tryNewWithBuffer fixedTryResize at this
    rw [if_neg (by omega)] at this
    exact this
  have hl : (zeroPrefix b k.stride).length = b.length := by
    unfold zeroPrefix
    rw [List.length_append, List.length_replicate, List.length_drop]; omega
  obtain ⟨n, r1, r2⟩ := k.init_behind h hl (fun i hi => by
    unfold zeroPrefix
    rw [List.getElem?_append_right (by rw [List.length_replicate]; exact hi),
      List.length_replicate, List.getElem?_drop]
    congr 1; omega) hinit
  exact ⟨x, n, e1, e3, r1, r2⟩

-- Building a message destroys the group of the message which was behind.
example : Sx.s7.tryNewWithBuffer [7, 7, 0x35020102, 0, 0x20903C40] =
    .ok [0x30000000, 0, 0x30020102, 0, 0x20903C40] := by decide +kernel

/-- C77: in front of an 8 bit system exclusive message a new one destroys a byte of its payload. -/
theorem C77_sysex8_violation :
    Sx.s8.payloadList [0x50030001, 0x02000000, 0, 0] = .ok [1, 2] ∧
    Sx.s8.tryNewWithBuffer ([0, 0, 0, 0] ++ [0x50030001, 0x02000000, 0, 0]) =
      .ok ([0x50010000, 0, 0, 0] ++ [0x50030000, 0x02000000, 0, 0]) ∧
    Sx.s8.payloadList [0x50030000, 0x02000000, 0, 0] = .ok [0, 2] := by decide +kernel

/-- C77, `set_group` on a system exclusive message at the front of an array, completely: it sets
the group in the headers of the message and of all packets of the same type that directly follow
one another behind it, to whatever message they belong, and changes nothing else. -/
theorem C77_sysex_set_group_exactly (k : Sx) (b : Buf .ump) (g : BitVec 4)
    (hb : k.layout.words ≤ b.length) (ht : fieldAt b 0 0 4 = some k.layout.type) :
    ∃ n, RunBehind k.layout.words k.layout.type b n ∧
      (k.setGroup b g).length = b.length ∧ ∀ i, i < b.length →
        (¬ (i % k.layout.words = 0 ∧ i / k.layout.words < n) → (k.setGroup b g)[i]? = b[i]?) ∧
        (i % k.layout.words = 0 → i / k.layout.words < n →
          fieldAt (k.setGroup b g) i 0 4 = fieldAt b i 0 4 ∧
          fieldAt (k.setGroup b g) i 4 4 = some g.toNat ∧
          fieldAt (k.setGroup b g) i 8 24 = fieldAt b i 8 24) := by
  rw [words_eq] at *
  have L : k.Like b b := ⟨rfl, ht, fun _ _ => rfl⟩
  have R := L.lead hb
  generalize k.lead b = n at R
  obtain ⟨g1, _⟩ := L.onTyped hb R (fun w => U32.setNibble w 1 g)
  have g1 : ∀ i : Nat, (k.setGroup b g)[i]? =
      if i % k.stride = 0 ∧ i / k.stride < n then (b[i]?).map (fun w => U32.setNibble w 1 g)
      else b[i]? := g1
  refine ⟨n, R, ?_, fun i hi => ⟨fun h => by rw [g1, if_neg h], fun h1 h2 => ?_⟩⟩
  · show (k.onTyped b _).length = _
    rw [Sx.onTyped_eq, onHeads_length k.stride_pos]
  · have xb : b[i]? = some b[i] := List.getElem?_eq_getElem hi
    have e : (k.setGroup b g)[i]? = some (U32.setNibble b[i] 1 g) := by
      rw [g1, if_pos ⟨h1, h2⟩, xb]; rfl
    have e2 := field_nibble_same b[i] 1 g (by omega)
    rw [fieldAt_ext e, fieldAt_ext e, fieldAt_ext e, fieldAt_ext xb, fieldAt_ext xb,
      field_nibble_ne _ _ _ (pos := 0) (by omega) (by omega) (by omega),
      field_nibble_ne _ _ _ (pos := 8) (by omega) (by omega) (by omega)]
    exact ⟨rfl, congrArg some e2, rfl⟩

/-- C77: two system exclusive messages of different groups in one array: `set_group` on the first
one changes the second one too. -/
theorem C77_set_group_violation :
    Sx.s7.data ([0x31020102, 0] ++ [0x35020304, 0]) = .ok [0x31020102, 0] ∧
    Sx.s7.setGroup ([0x31020102, 0] ++ [0x35020304, 0]) 2 =
      [0x32020102, 0] ++ [0x32020304, 0] := by decide +kernel

example : ∃ n, RunBehind 2 3 [0x31020102, 0, 0x35020304, 0, 0x20903C40] n := by
  obtain ⟨n, h, _⟩ := C77_sysex_set_group_exactly .s7 [0x31020102, 0, 0x35020304, 0, 0x20903C40] 2
    (by decide) (by decide)
  exact ⟨n, h⟩

end Midi2
