import Verif.Lemmas.Stale
import Verif.Props.Canonical

/-!
# C57: the padding of short system exclusive messages

The one part of a message that depends on its history is the padding of its first packet.
-/

namespace Midi2

open Sx

/-- The first packet of `b` holds `M`. -/
def Sx.FirstHolds (k : Sx) (b : Buf .ump) (M : Nat → Nat) : Prop :=
  ∀ i, i < k.cap → (octetAt b (k.addr i)).map BitVec.toNat = some (M i)

theorem exec_kept {k : Sx} {dbg : Bool} {b b' : Buf .ump} {g : BitVec 4} {l : List k.Byte}
    (S : Strict k dbg (ZeroId k) g none b l) (c : SxCall k) (hr : c.InRange l) (hs : c.Sized l)
    (e : c.exec dbg b = .ok b') : Kept k (c.apply (g, l)).2.length b b' := by
  have hI := inv_zeroId k (fixed := false)
  have hps : (k.ops dbg .vec).payloadSize b = .ok l.length := S.packed.payloadSize_eq
  have happ : ∀ d : Src k.Byte, (k.ops dbg .vec).insert b d l.length = .ok b' →
      Kept k (l ++ d.items).length b b' := by
    intro d e
    have := S.splice_kept hI d (.included l.length) (.excluded l.length) (Nat.le_refl _)
      (Nat.le_refl _) (Or.inr rfl) e
    rw [spliced_append] at this
    exact this
  cases c with
  | setGroup g' => cases e; exact setGroup_kept k b g' _
  | setPayload d =>
    obtain ⟨w, hw, hwg⟩ := S.packed.group_eq
    obtain ⟨b1, e1, S1⟩ := clear_vec k dbg hI ⟨w, hw, hwg⟩ (zeroId_vecResize S.whole.inv _)
    have k1 := tryResize_kept (by have := S.packed.frame.le_mul S.packed.pos; omega) d.items.length e1
    change (k.ops dbg .vec).setPayload b d = _ at e
    unfold SxOps.setPayload at e
    change ((k.tryResize .vec b 0) >>= fun x => _) = _ at e
    rw [e1] at e
    have k2 := S1.splice_kept hI d (.included 0) (.excluded 0) (Nat.le_refl _)
      (Nat.le_refl _) (Or.inr rfl) e
    have hsp : spliced ([] : List k.Byte) (Bound.included 0).first
        ((Bound.excluded 0).last ([] : List k.Byte).length) d.items = d.items := by
      simp [spliced]
    rw [hsp] at k2
    exact fun i h1 h2 => (k2 i h1 h2).trans (k1 i h1 h2)
  | splicePayload d rb re => exact S.splice_kept hI d rb re hr.1 hr.2 hs e
  | insertPayload d i =>
    exact S.splice_kept hI d (.included i) (.excluded i) (Nat.le_refl _) hr hs e
  | appendPayload d =>
    change (k.ops dbg .vec).append b d = _ at e
    unfold SxOps.append at e
    rw [hps] at e
    exact happ d e
  | appendByte v =>
    change (k.ops dbg .vec).appendByte b v = _ at e
    unfold SxOps.appendByte at e
    rw [hps] at e
    exact happ ⟨[v], 1, some 1⟩ e
  | setPayloadByte i v =>
    have := S.setByte_kept v hr e
    show Kept k (l.set i v).length b b'
    rw [List.length_set]
    exact this

theorem Sx.Strict.first_byte {k : Sx} {dbg : Bool} {N : Option Nat} {b : Buf .ump} {g : BitVec 4}
    {l : List k.Byte} (S : Strict k dbg (ZeroId k) g N b l) {i : Nat} (hi : i < l.length) :
    (octetAt b (k.addr i)).map BitVec.toNat = (l[i]?).map BitVec.toNat := by
  have ho := octetAt_lt (S.packed.addr_lt hi)
  have hb := S.packed.bytes i hi
  rw [← hb]
  rw [ho]
  simp only [Option.map_some, Option.some.injEq]
  exact (toNat_ofOctet S.whole.inv.2 ho).symm

theorem exec_held {k : Sx} {dbg : Bool} :
    ∀ (cs : List (SxCall k)) (b b' : Buf .ump) (s : BitVec 4 × List k.Byte) (ps : List (List k.Byte)),
      SxCall.AllInRange cs s → SxCall.AllSized cs s → Strict k dbg (ZeroId k) s.1 none b s.2 →
      k.FirstHolds b (lastHeld ps) → SxCall.execAll dbg cs b = .ok b' →
      k.FirstHolds b' (lastHeld (ps ++ SxCall.payloads cs s)) := by
  intro cs
  induction cs with
  | nil =>
    intro b b' s ps _ _ _ hf e
    cases e
    simpa [SxCall.payloads] using hf
  | cons c cs ih =>
    intro b b' s ps hr hs S hf e
    obtain ⟨b1, e1, S1⟩ := exec_strict S c hr.1
    change (c.exec dbg b >>= fun b => SxCall.execAll dbg cs b) = _ at e
    have hk := exec_kept S c hr.1 hs.1 e1
    rw [e1] at e
    have hf1 : k.FirstHolds b1 (lastHeld (ps ++ [(c.apply s).2])) := by
      intro i hi
      by_cases hl : i < (c.apply s).2.length
      · rw [S1.first_byte hl]
        unfold lastHeld
        rw [List.reverse_append]
        simp only [List.reverse_cons, List.reverse_nil, List.nil_append, List.cons_append]
        rw [List.findSome?_cons_of_isSome (by simp [hl])]
        rw [List.getElem?_eq_getElem hl]
        rfl
      · rw [hk i (by show (c.apply s).2.length ≤ i; omega) hi, hf i hi]
        unfold lastHeld
        rw [List.reverse_append]
        simp only [List.reverse_cons, List.reverse_nil, List.nil_append, List.cons_append]
        rw [List.findSome?_cons_of_isNone (by simp; omega)]
    have := ih b1 b' (c.apply s) _ hr.2 hs.2 S1 hf1 e
    rw [List.append_assoc] at this
    exact this

theorem newVec_held (k : Sx) : ∀ b, k.newVec = .ok b → k.FirstHolds b (lastHeld (k := k) []) := by
  intro b h
  cases k with
  | s7 =>
    cases h
    intro i hi
    have : ∀ i < 6, (octetAt [0x30000000#32, 0#32] (Sx.s7.addr i)).map BitVec.toNat = some 0 := by
      decide
    exact this i hi
  | s8 =>
    cases h
    intro i hi
    have : ∀ i < 13, (octetAt [0x50010000#32, 0#32, 0#32, 0#32] (Sx.s8.addr i)).map BitVec.toNat = some 0 := by
      decide
    exact this i hi

/-- C57, exactly: after any sequence of in-range calls on a new message over a resizable buffer
the message is the wire format of its group and payload, except that a payload which does not
fill one packet is followed by what earlier payloads have left there: each unused octet still
holds the byte of the last payload that was long enough to use it.  The iterators must know
their length (as those of slices, arrays and vectors do) unless they go to the end of the
payload: a splice into the middle moves the rest of the payload to where the iterator says it
will end, and back. -/
theorem C57_sysex_wire_exactly (k : Sx) (dbg : Bool) (cs : List (SxCall k))
    (hr : SxCall.AllInRange cs (0, [])) (hs : SxCall.AllSized cs (0, [])) :
    ∃ b b', k.newVec = .ok b ∧ SxCall.execAll dbg cs b = .ok b' ∧ k.data b' = .ok b' ∧
      octets b' =
        if k.layout.capacity ≤ (SxCall.applyAll cs (0, [])).2.length then
          k.layout.wire (SxCall.applyAll cs (0, [])).1.toNat
            ((SxCall.applyAll cs (0, [])).2.map BitVec.toNat)
        else
          (k.layout.wire (SxCall.applyAll cs (0, [])).1.toNat
            ((SxCall.applyAll cs (0, [])).2.map BitVec.toNat)).take
              (k.layout.first + (SxCall.applyAll cs (0, [])).2.length) ++
          (List.range' (SxCall.applyAll cs (0, [])).2.length
              (k.layout.capacity - (SxCall.applyAll cs (0, [])).2.length)).map
            (lastHeld (SxCall.payloads cs (0, []))) := by
  obtain ⟨b, b', e, e', hd, h1, h2, h3⟩ := C57_sysex_wire_partial k dbg cs hr
  obtain ⟨b0, e0, S⟩ := newVec_strict k dbg
  rw [e] at e0
  cases e0
  have hf := exec_held cs b b' (0, []) [] hr hs S (newVec_held k b e) e'
  rw [List.nil_append] at hf
  refine ⟨b, b', e, e', hd, ?_⟩
  by_cases h : k.layout.capacity ≤ (SxCall.applyAll cs (0, [])).2.length
  · rw [if_pos h]; exact h1 h
  · rw [if_neg h, ← h3]
    generalize (SxCall.applyAll cs (0, [])).2 = l at *
    rw [capacity_eq] at h ⊢
    rw [first_eq] at h3 ⊢
    have hc := k.cap_off
    have hw : k.layout.wireLength l.length = k.off + k.cap := by
      rw [wireLength_eq, k.count_one (by omega)]; omega
    rw [hw] at h2
    apply List.ext_getElem?
    intro a
    by_cases ha : a < k.off + l.length
    · rw [List.getElem?_append_left (by rw [List.length_take]; omega), List.getElem?_take_of_lt ha]
    · rw [List.getElem?_append_right (by rw [List.length_take]; omega), List.length_take,
        Nat.min_eq_left (by omega), List.getElem?_map]
      by_cases ha2 : a < k.off + k.cap
      · rw [List.getElem?_range' (by omega)]
        have := hf (a - k.off) (by omega)
        rw [k.addr_first (by omega), show k.off + (a - k.off) = a by omega] at this
        rw [octets_getElem?, this]
        simp only [Option.map_some]
        congr 2
        omega
      · rw [List.getElem?_eq_none (by omega), List.getElem?_eq_none (by simp; omega)]
        rfl

-- C57: the iterators of slices, of a filter at the end of the payload, and of one in the middle.
example : SxCall.AllInRange (k := .s7)
      [.setPayload ⟨[1, 2, 3, 4, 5, 6, 7, 8], 8, some 8⟩,
        .splicePayload ⟨[9], 1, some 1⟩ (.included 1) .unbounded, .appendPayload ⟨[10], 0, some 3⟩] (0, []) ∧
    SxCall.AllSized (k := .s7)
      [.setPayload ⟨[1, 2, 3, 4, 5, 6, 7, 8], 8, some 8⟩,
        .splicePayload ⟨[9], 1, some 1⟩ (.included 1) .unbounded, .appendPayload ⟨[10], 0, some 3⟩] (0, []) ∧
    SxCall.payloads (k := .s7)
      [.setPayload ⟨[1, 2, 3, 4, 5, 6, 7, 8], 8, some 8⟩,
        .splicePayload ⟨[9], 1, some 1⟩ (.included 1) .unbounded, .appendPayload ⟨[10], 0, some 3⟩] (0, []) =
      [[1, 2, 3, 4, 5, 6, 7, 8], [1, 9], [1, 9, 10]] ∧
    (Sx.s7.newVec >>= SxCall.execAll (k := .s7) true
      [.setPayload ⟨[1, 2, 3, 4, 5, 6, 7, 8], 8, some 8⟩,
        .splicePayload ⟨[9], 1, some 1⟩ (.included 1) .unbounded, .appendPayload ⟨[10], 0, some 3⟩]) =
      .ok [0x30030109, 0x0A040506] := by
  refine ⟨?_, ?_, by decide +kernel, by decide +kernel⟩
  · simp [SxCall.AllInRange, SxCall.InRange, Bound.first, Bound.last, SxCall.apply]
  · simp [SxCall.AllSized, SxCall.Sized]

/-- The condition on iterators is needed: an iterator that promises two bytes more than it has
moves the rest of the payload over the padding. -/
theorem C57_sysex_padding_moved :
    ∃ cs : List (SxCall .s7), ∃ b : Buf .ump, SxCall.AllInRange cs (0, []) ∧
      (Sx.s7.newVec >>= SxCall.execAll true cs) = .ok b ∧
      SxCall.payloads cs (0, []) = [[1, 2, 3], [2, 3]] ∧
      octets b = [0x30, 2, 2, 3, 2, 3, 0, 0] :=
  ⟨[.setPayload ⟨[1, 2, 3], 3, some 3⟩, .splicePayload ⟨[], 0, some 2⟩ (.included 0) (.excluded 1)],
    [0x30020203, 0x02030000],
    by simp [SxCall.AllInRange, SxCall.InRange, Bound.first, Bound.last, SxCall.apply], by decide +kernel⟩

end Midi2
