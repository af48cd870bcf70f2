import Verif.Lemmas.ReadyHistory

/-!
# C47: histories that begin with any message

`Sx.Ready` (Spec/Lazy.lean) says that a buffer shows a group and a payload, is a complete message
on the wire and can be spliced (see C21).  The message may have come from anywhere, may have partly
filled packets, and other words may lie behind it.
-/

namespace Midi2

open Sx

/-- C47: any sequence of in-range calls on a message over a resizable buffer never panics, and
leaves the message showing what the same calls make of its group and a plain list of its bytes. -/
theorem C47_any_history (k : Sx) (dbg : Bool) (b : Buf .ump) (g : BitVec 4) (l : List k.Byte)
    (R : k.Ready dbg false b g l) (cs : List (SxCall k)) (hr : SxCall.AllInRange cs (g, l)) :
    ∃ b', SxCall.execAll dbg cs b = .ok b' ∧
      k.Ready dbg false b' (SxCall.applyAll cs (g, l)).1 (SxCall.applyAll cs (g, l)).2 :=
  ready_history cs b (g, l) hr R

/-- C47 for a message in an array or a slice: the calls return `BufferOverflow` exactly when the
wanted payload does not fit, and the message then is empty.  Builds with debug assertions want no
partly filled packet behind the first one. -/
theorem C47_any_fixed_history (k : Sx) (dbg : Bool) (b : Buf .ump) (g : BitVec 4)
    (l : List k.Byte) (R : k.Ready dbg true b g l)
    (ht : dbg = true → k.layout.Tidy k.layout.words b) (cs : List (SxTryCall k))
    (hr : SxTryCall.AllInRange b.length cs (g, l)) :
    ∃ b', SxTryCall.execAll dbg cs b = .ok (b', (SxTryCall.applyAll b.length cs (g, l)).2) ∧
      b'.length = b.length ∧
      k.Ready dbg true b' (SxTryCall.applyAll b.length cs (g, l)).1.1
        (SxTryCall.applyAll b.length cs (g, l)).1.2 := by
  obtain ⟨b', h1, h2, -, h4⟩ := try_ready_history cs b (g, l) hr rfl R ht
  exact ⟨b', h1, h2, h4⟩

-- Two partly filled packets, then a note on and a channel voice 2 message.
example : (Sx.s7).Ready true false
      [0x35120102, 0, 0x35310300, 0, 0x20903C40, 0, 0x40903C00, 0] 5 [1, 2, 3] ∧
    SxCall.AllInRange (k := .s7) [.appendByte 9, .setGroup 7, .setPayloadByte 0 8] (5, [1, 2, 3]) ∧
    SxCall.execAll (k := .s7) true [.appendByte 9, .setGroup 7, .setPayloadByte 0 8]
      [0x35120102, 0, 0x35310300, 0, 0x20903C40, 0, 0x40903C00, 0] = .ok [0x37040802, 0x03090000] := by
  refine ⟨⟨by decide +kernel, by decide +kernel, [2, 1], ⟨by decide, by decide, by decide, ?_, ?_, ?_, ?_⟩,
    .inr ⟨0, 2, by decide, by decide, rfl, by decide⟩, fun _ => ?_⟩, ?_, by decide +kernel⟩
  · intro j (hj : j < 2); revert j; decide +kernel
  · intro j (hj : j < 2); revert j; decide +kernel
  · intro j (hj : j < 2); revert j; decide +kernel
  · intro j s h
    match j, h with
    | 0, h => cases h; decide +kernel
    | 1, h => cases h; decide +kernel
  · intro i h1 h2 h3 h4
    have : i = 1 := by
      rw [show s7.layout.words * (s7.layout.fill [2, 1].sum).length = 2 by decide +kernel] at h1
      have h2 : 4 * i + 4 ≤ 8 := h2
      omega
    subst this
    exact absurd h4.1 (by decide +kernel)
  · simp only [SxCall.AllInRange, SxCall.InRange]
    decide

end Midi2
