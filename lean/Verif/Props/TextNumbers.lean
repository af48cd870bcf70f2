import Verif.Props.TextStream
import Verif.Props.TextExact

/-!
# Channels and block numbers of text messages, packet by packet

C40 for flex data text and C32 say that every packet of the message has the channel or the
number that was set.  The code does not do that, see `C40_flex_text_violation` and
`C32_number_on_growth_violation`; the theorems here say exactly when it does.
-/

namespace Midi2

/-- Address and channel, the low six bits of the second octet of a flex data packet: the
number of the channel, or 16 for the whole group. -/
def FlexText.addressed (b : List (BitVec 32)) (j : Nat) (c : Option (BitVec 4)) : Prop :=
  fieldAt b (4 * j) 10 6 = some ((c.map BitVec.toNat).getD 16)

/-- C40, every packet: `set_optional_channel(c)` addresses the first packet to `c` and changes
nothing else, so that the packets of the message are all addressed to `c` exactly when those
behind the first were before. -/
theorem C40_flex_text_exactly (t : FlexText) (b : Buf .ump) (B : t.Backs b) (c : Option (BitVec 4)) :
    ∃ b', FlexText.setChannel b c = .ok b' ∧ b'.length = b.length ∧
      FlexText.addressed b' 0 c ∧ (∀ i, i ≠ 0 → b'[i]? = b[i]?) ∧
      (∀ p n, (p, n) ∈ [(0, 8), (8, 2), (16, 8), (24, 8)] → fieldAt b' 0 p n = fieldAt b 0 p n) ∧
      ∀ n, 0 < n → ((∀ j, j < n → FlexText.addressed b' j c) ↔
        ∀ j, 0 < j → j < n → FlexText.addressed b j c) := by
  obtain ⟨w, e1, _⟩ := FlexText.backs_word B
  have hb : 0 < b.length := by have := B.len; omega
  have h0 : (b.set 0 (FlexText.putChannel c w))[0]? = some (FlexText.putChannel c w) :=
    List.getElem?_set_self hb
  have hne : ∀ i, i ≠ 0 → (b.set 0 (FlexText.putChannel c w))[i]? = b[i]? := fun i hi =>
    List.getElem?_set_ne (fun h => hi h.symm)
  have h8 := congrArg BitVec.toNat (FlexText.octet1_putChannel c w)
  rw [octet_field _ (by omega)] at h8
  have hc : (U32.crumb w 4 ++ FlexText.chanBits c).toNat =
      64 * field w 8 2 + (c.map BitVec.toNat).getD 16 := by
    have h2 := crumb_field w (i := 4) (by omega)
    have hv : (FlexText.chanBits c).toNat = (c.map BitVec.toNat).getD 16 := by
      cases c with
      | none => rfl
      | some c =>
        show (0#2 ++ c : BitVec 6).toNat = c.toNat
        rw [BitVec.toNat_append]
        simp
    rw [BitVec.toNat_append, h2, ← hv, Nat.shiftLeft_eq, Nat.mul_comm,
      ← Nat.two_pow_add_eq_or_of_lt (FlexText.chanBits c).isLt]
  rw [hc] at h8
  have hlow : field (FlexText.putChannel c w) 10 6 = (c.map BitVec.toNat).getD 16 ∧
      field (FlexText.putChannel c w) 8 2 = field w 8 2 := by
    have hlt : (c.map BitVec.toNat).getD 16 < 64 := by
      cases c with
      | none => show 16 < 64; omega
      | some c => show c.toNat < 64; omega
    revert h8
    unfold field
    intro h8
    generalize (c.map BitVec.toNat).getD 16 = v at *
    generalize (FlexText.putChannel c w).toNat = x at *
    generalize w.toNat = y at *
    simp only [Nat.reduceSub, Nat.reducePow] at *
    omega
  have ha : FlexText.addressed (b.set 0 (FlexText.putChannel c w)) 0 c := by
    unfold FlexText.addressed fieldAt
    rw [Nat.mul_zero, h0, Option.map_some, hlow.1]
  refine ⟨_, FlexText.setChannel_ok e1 c, List.length_set .., ha, hne, ?_, ?_⟩
  · intro p n hp
    unfold fieldAt
    rw [h0, e1, Option.map_some, Option.map_some]
    simp only [List.mem_cons, Prod.mk.injEq, List.not_mem_nil, or_false] at hp
    rcases hp with ⟨rfl, rfl⟩ | ⟨rfl, rfl⟩ | ⟨rfl, rfl⟩ | ⟨rfl, rfl⟩
    · exact congrArg some (by
        rw [← octet_field _ (i := 0) (by omega), ← octet_field _ (i := 0) (by omega),
          FlexText.octet_putChannel_ne _ _ (by omega) (by omega)])
    · exact congrArg some hlow.2
    · exact congrArg some (by
        rw [← octet_field _ (i := 2) (by omega), ← octet_field _ (i := 2) (by omega),
          FlexText.octet_putChannel_ne _ _ (by omega) (by omega)])
    · exact congrArg some (by
        rw [← octet_field _ (i := 3) (by omega), ← octet_field _ (i := 3) (by omega),
          FlexText.octet_putChannel_ne _ _ (by omega) (by omega)])
  · intro n hn
    have hj : ∀ j, 0 < j → (FlexText.addressed (b.set 0 (FlexText.putChannel c w)) j c ↔
        FlexText.addressed b j c) := by
      intro j h
      unfold FlexText.addressed fieldAt
      rw [hne _ (by omega)]
    constructor
    · intro h j h0 h1
      exact (hj j h0).mp (h j h1)
    · intro h j h1
      by_cases h0 : j = 0
      · rw [h0]; exact ha
      · exact (hj j (by omega)).mpr (h j (by omega) h1)

example : ∃ b', FlexText.setChannel sampleFlexTwo (some 9) = .ok b' ∧ FlexText.addressed b' 0 (some 9) ∧
    ¬ ∀ j, j < 2 → FlexText.addressed b' j (some 9) := by
  obtain ⟨b', h1, _, h2, _, _, h3⟩ := C40_flex_text_exactly ⟨"", 1, 4⟩ sampleFlexTwo
    ⟨by decide, by decide, by decide, by decide⟩ (some 9)
  refine ⟨b', h1, h2, fun h => ?_⟩
  have := (h3 2 (by decide)).mp h 1 (by decide) (by decide)
  revert this
  unfold FlexText.addressed
  decide

/-- C32, the number: after `set_name`, the words parse exactly when the packets of the new text
had the same number in the old buffer, packets that did not exist having had 0. -/
theorem C32_number_exactly (b : Buf .ump) (B : StreamText.functionBlockName.Backs b) (s : String) :
    ∃ b' d, StreamText.functionBlockName.setText b s = .ok b' ∧ StreamText.data b' = .ok d ∧
      (∀ j, j < textPackets 13 (utf8 s).length →
        fieldAt d (4 * j) 16 8 = some (octetVal b (16 * j + 2))) ∧
      (StreamText.functionBlockName.tryFrom d = .ok d ↔
        ∀ j, j < textPackets 13 (utf8 s).length → octetVal b (16 * j + 2) = octetVal b 2) := by
  have K : StreamText.functionBlockName.Known := StreamText.known_of_mem (by simp [StreamText.all])
  obtain ⟨b', f1, f2, H⟩ := StreamText.setText_holds K B s
  have hd : StreamText.data b' = .ok b' := by
    rw [H.data_eq K, ← f2, List.take_length]
  have hfield : ∀ j, j < textPackets 13 (strBytes s).length →
      fieldAt b' (4 * j) 16 8 = some (octetVal b (16 * j + 2)) := by
    intro j hj
    obtain ⟨w, e1, _, _, _, e5⟩ := H.word hj
    rw [fieldAt, e1, Option.map_some, ← StreamText.blockAt_val, ← e5 rfl]
    exact congrArg some (octet_field w (i := 2) (by omega)).symm
  have hp : 0 < textPackets 13 (strBytes s).length := H.packets_pos K
  rw [length_utf8]
  refine ⟨b', b', f1, hd, hfield, ?_⟩
  rw [StreamText.tryFrom_iff K]
  constructor
  · intro A j hj
    have := A.blocks rfl j (by rw [f2]; show 4 * (j + 1) ≤ 4 * textPackets 13 _; omega)
    have h0 := hfield 0 hp
    rw [hfield j hj] at this
    rw [Nat.mul_zero] at h0
    rw [h0] at this
    exact Option.some.inj this
  · intro h
    refine H.accepts K f2 (fun _ j hj => ?_) ?_
    · apply BitVec.eq_of_toNat_eq
      rw [StreamText.blockAt_val, StreamText.blockAt_val]
      exact h j hj
    · exact ⟨withoutNul s, strBytes_withoutNul s⟩

example : sampleFlexTwo.length = 8 ∧ FlexText.addressed sampleFlexTwo 1 (some 5) ∧
    ¬ FlexText.addressed sampleFlexTwo 1 (some 9) := by
  refine ⟨rfl, ?_, ?_⟩ <;> (unfold FlexText.addressed; decide)

-- One packet had number 3; the second packet of the longer text has 0.
example : octetVal sampleBlockName 2 = 3 ∧ octetVal sampleBlockName 18 = 0 ∧
    textPackets 13 (utf8 "abcdefghijklmn").length = 2 := by decide

end Midi2
