import Verif.Props.Truncated
import Verif.Props.Programs
import Verif.Props.SysexBytes

/-!
# C25 and C58 without exceptions
-/

namespace Midi2

/-- C25, bytes to UMP, exactly: an accepted byte message is `F0`, payload, `F7` and a rest.  The
conversion to a growable buffer gives the message of group 0 with that payload if every payload
byte is below `0x80`, and panics otherwise; so does the conversion into an array with room for
the payload. -/
theorem C25_bytes_to_ump_exactly (dbg : Bool) (b : Buf .bytes) (h : Sxb.tryFrom b = .ok b) :
    ∃ p rest : List (BitVec 8), b = 0xF0 :: p ++ 0xF7 :: rest ∧ (0xF7 : BitVec 8) ∉ p ∧
      ((∀ x ∈ p, x.toNat < 128) → ∃ b' l, Sxb.fromBytes dbg b = .ok b' ∧ Sx.s7.Holds b' 0 l ∧
        l.map BitVec.toNat = p.map BitVec.toNat ∧ Sx.s7.data b' = .ok b') ∧
      ((∃ x ∈ p, 128 ≤ x.toNat) → Sxb.fromBytes dbg b = .panic ∧
        ∀ n, sysex7Layout.wireLength p.length ≤ 4 * n → Sxb.tryFromBytes dbg n b = .panic) := by
  obtain ⟨p, rest, hb, hp, h1, h2, h3, h4⟩ := C06_sysex7_bytes_reads_partial b h
  refine ⟨p, rest, hb, hp, fun hs => ?_, fun hs => ?_⟩
  · obtain ⟨l, e1, e2⟩ := h3 hs
    obtain ⟨b', f1, f2, f3⟩ := C25_bytes_to_ump dbg b h l e1
    exact ⟨b', l, f1, f2, e2, f3⟩
  · have hsrc : Sxb.source b = .panic := by
      unfold Sxb.source
      rw [h4 hs]
      cases e : Sxb.payload b with
      | ok it => rfl
      | err _ =>
        unfold Sxb.payloadSize at h2
        rw [e] at h2; cases h2
      | panic => rfl
    refine ⟨by unfold Sxb.fromBytes; rw [hsrc]; rfl, fun n hn => ?_⟩
    have hn : 2 ≤ n := by
      have := Sx.wireLength_eq .s7 p.length
      rw [show Sx.s7.layout = sysex7Layout from rfl] at this
      rw [this] at hn
      have hc : 1 ≤ Sx.s7.count p.length := by
        unfold Sx.count
        split
        · omega
        · next h => exact (Nat.le_div_iff_mul_le (by decide)).mpr (by simp only [Sx.cap]; omega)
      simp only [Sx.stride] at hn
      omega
    unfold Sxb.tryFromBytes fixedTryResize
    rw [if_neg (by rw [List.length_replicate]; omega), Res.ok_bind, convert_zero hn, Res.ok_bind, hsrc]
    rfl

-- Both cases occur.
example : Sxb.tryFrom [0xF0, 1, 0x7F, 0xF7] = .ok [0xF0, 1, 0x7F, 0xF7] ∧
    Sxb.fromBytes true [0xF0, 1, 0x7F, 0xF7] = .ok [0x3002017F, 0] ∧
    Sxb.tryFrom [0xF0, 1, 0x80, 0xF7] = .ok [0xF0, 1, 0x80, 0xF7] ∧
    Sxb.fromBytes true [0xF0, 1, 0x80, 0xF7] = .panic := by decide +kernel

/-- C58, exactly: `handle_message` panics on the sysex7 slices whose last packet is cut short, and
prints what it should for every other slice of words. -/
theorem C58_handle_message_exactly (b : Buf .ump) :
    (Sx.s7.tryFrom b = .ok b ∧ ¬ sysex7Layout.Untruncated b → Handler.handle b = .panic) ∧
    (¬ (Sx.s7.tryFrom b = .ok b ∧ ¬ sysex7Layout.Untruncated b) →
      ∃ out, Handler.handle b = .ok out ∧ Handler.Prints b out) := by
  refine ⟨fun ⟨hok, hu⟩ => ?_, fun h => C58_handle_message_partial b fun hok =>
    Classical.byContradiction fun hu => h ⟨hok, hu⟩⟩
  have hp := ((C06_sysex_exactly .s7 b hok).2 hu).2.2.1
  unfold Handler.handle
  rcases Handler.tryFrom_cases b with ⟨e, h⟩ | ⟨d, hd, hok', h⟩ | ⟨_, h⟩
  · exact absurd hok (Handler.refused h).2
  · have ht : ∃ x ∈ umpTable, x.1 = .fixed d ∧ x.2.type = 4 := by
      have : ∀ d ∈ Msg.cv2All, ∃ x ∈ umpTable, x.1 = .fixed d ∧ x.2.type = 4 := by decide +kernel
      exact this d hd
    have hs : ∃ x ∈ umpTable, x.1 = .sysex .s7 ∧ x.2.type = 3 := by decide +kernel
    obtain ⟨⟨_, hd1⟩, m1, rfl, t1⟩ := ht
    obtain ⟨⟨_, hd2⟩, m2, rfl, t2⟩ := hs
    have r1 : (UmpKind.fixed d).room ≤ b.length := by
      have hl := ((tryFrom_iff d .ump b).mp hok').1
      have : ∀ d ∈ Msg.cv2All, (UmpKind.fixed d).room = 0 := by decide +kernel
      rw [this d hd]; omega
    have r2 : (UmpKind.sysex .s7).room ≤ b.length := Nat.zero_le _
    have o1 := (accepted_header m1 r1 hok').1
    have o2 := (accepted_header m2 r2 hok).1
    rw [o1] at o2
    have := Option.some.inj o2
    simp only at t1 t2
    omega
  · rw [h]
    simp only
    rw [hp]
    rfl

example : (Handler.handle [0x20933C64]).isOk = true ∧
    Handler.handle [0x30160001, 0x02030405, 0x30320607] = .panic := by decide +kernel

end Midi2
