import Verif.Lemmas.SysexHold
import Verif.Lemmas.TextWire

/-! The octets of system exclusive messages in full. -/

namespace Midi2

namespace Sx

theorem length_wire (k : Sx) (g : Nat) (l : List Nat) :
    (k.layout.wire g l).length = 4 * (k.stride * k.count l.length) := by
  unfold SysexLayout.wire
  have hsplit := split_eq k _ l (Nat.le_refl _)
  rw [length_flatten_uniform (s := 4 * k.stride), List.length_map, List.length_zipIdx, hsplit,
    List.length_map, List.length_range, Nat.mul_assoc]
  intro q hq
  rw [List.mem_map] at hq
  obtain ⟨⟨c, i⟩, hc, rfl⟩ := hq
  refine length_packet k _ _ _ _ ?_
  have := List.mem_zipIdx' hc
  have hc2 : c ∈ k.layout.split l := by rw [this.2]; exact List.getElem_mem _
  rw [hsplit, List.mem_map] at hc2
  obtain ⟨t, _, rfl⟩ := hc2
  rw [List.length_take]; omega

section
variable {k : Sx} {g : BitVec 4} {b : Buf .ump} {l : List k.Byte} {dbg : Bool} {N : Option Nat}

/-- Octets of the message that are determined: all if the first packet is full. -/
theorem Strict.wire_at (S : Strict k dbg (ZeroId k) g N b l) (a : Nat)
    (ha : k.cap ≤ l.length ∨ a < k.off + l.length) :
    (octets (b.take (k.stride * k.count l.length)))[a]? =
      (k.layout.wire g.toNat (l.map BitVec.toNat))[a]? := by
  have P := S.packed
  rw [octets_getElem?]
  by_cases h : a < 4 * (k.stride * k.count l.length)
  · have e : octetAt (b.take (k.stride * k.count l.length)) a = octetAt b a := by
      unfold octetAt
      rw [List.getElem?_take_of_lt (by omega)]
    rw [e]
    refine P.wire_getElem? S.whole.inv a h ?_
    intro i hi hai
    subst hai
    rw [k.addr_lt_iff] at h
    by_cases h2 : 2 ≤ k.count l.length
    · exact S.pad h2 i hi h
    · have hc := k.count_pos l.length
      have h1 : k.count l.length = 1 := by omega
      rw [h1, Nat.mul_one] at h
      exfalso
      rcases ha with ha | ha
      · omega
      · unfold addr at ha
        rw [Nat.div_eq_of_lt h] at ha
        omega
  · rw [octetAt_none (by rw [List.length_take]; omega), List.getElem?_eq_none]
    · rfl
    · rw [length_wire, List.length_map]; omega

theorem Strict.wire_full (S : Strict k dbg (ZeroId k) g N b l) (h : k.cap ≤ l.length) :
    octets (b.take (k.stride * k.count l.length)) = k.layout.wire g.toNat (l.map BitVec.toNat) :=
  List.ext_getElem? fun a => S.wire_at a (.inl h)

theorem Strict.wire_take (S : Strict k dbg (ZeroId k) g N b l) :
    (octets (b.take (k.stride * k.count l.length))).take (k.off + l.length) =
      (k.layout.wire g.toNat (l.map BitVec.toNat)).take (k.off + l.length) := by
  apply List.ext_getElem?
  intro a
  rw [List.getElem?_take, List.getElem?_take]
  split
  · next h => exact S.wire_at a (.inr h)
  · rfl

end

end Sx

theorem octets_inj {d d' : Buf .ump} (h : octets d = octets d') : d = d' := by
  have hl : d.length = d'.length := by
    have := congrArg List.length h
    rw [Sx.length_octets, Sx.length_octets] at this
    omega
  refine eq_of_octetAt hl fun a ha => ?_
  have e := congrArg (fun L : List Nat => L[a]?) h
  simp only [Sx.octets_getElem?] at e
  rw [octetAt_lt ha, octetAt_lt (by omega)] at e ⊢
  simp only [Option.map_some, Option.some.injEq] at e ⊢
  exact BitVec.eq_of_toNat_eq e

end Midi2
