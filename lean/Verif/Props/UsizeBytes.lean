import Verif.Lemmas.UsizeBytes
import Verif.Props.Usize

/-!
# C66: machine integers, byte messages in buffers of fixed size

These calls contain no debug assertions, so that the two kinds of builds differ only in the overflow
checks.
-/

namespace Midi2

/-- C66 for the fallible calls on messages over bytes. -/
theorem C66_sysex_bytes_try_history (w : Nat) (cs : List (SxTryCall .s7)) (b : Buf .bytes)
    (h : SxTryCall.execAllBytesU (.checked w) cs b ≠ .panic) :
    SxTryCall.execAllBytesU (.wrapping w) cs b = SxTryCall.execAllBytesU (.checked w) cs b ∧
    SxTryCall.execAllBytes cs b = SxTryCall.execAllBytesU (.checked w) cs b := by
  rw [← SxTryCall.execAllBytesU_unbounded]
  exact ⟨((Arith.checked_wrapping w).tryExecAllBytes cs b).eq h,
    ((Arith.checked_unbounded w).tryExecAllBytes cs b).eq h⟩

example : SxTryCall.execAllBytesU (.checked 64)
      [.setPayload ⟨[1, 2, 3], 0, none⟩, .appendByte 4, .appendByte 5, .appendByte 6]
      [0xF0, 0xF7, 0, 0, 0, 0] =
    .ok ([0xF0, 6, 0xF7, 3, 4, 0xF7], [none, none, some .bufferOverflow, none]) := by decide +kernel

/-- C66: with operands of at most `M` the outcome with overflow checks is that for unbounded numbers. -/
theorem C66_sysex_bytes_try_history_exact {w M : Nat} (hM : 4 ≤ M) (hw : 1024 * M ≤ 2 ^ w)
    (cs : List (SxTryCall .s7)) (b : Buf .bytes) (hb : b.length ≤ M)
    (h : ∀ c ∈ cs, SxTryCall.Small M c) :
    SxTryCall.execAllBytesU (.checked w) cs b = SxTryCall.execAllBytes cs b := by
  rw [← SxTryCall.execAllBytesU_unbounded]
  exact Res.eq_of_under (SxTryCall.execAllBytes_fits hM hw cs b hb h)
    ((Arith.checked_unbounded w).tryExecAllBytes cs b)

example : SxTryCall.execAllBytesU (.checked 16) [.appendByte 4] [0xF0, 0xF7, 0] =
    SxTryCall.execAllBytes [.appendByte 4] [0xF0, 0xF7, 0] :=
  C66_sysex_bytes_try_history_exact (M := 64) (by decide) (by decide) _ _ (by decide) (by simp [SxTryCall.Small])

/-- C66: and a release build has the outcome of a debug build which does not panic. -/
theorem C66_sysex_bytes_try_history_release {w M : Nat} (hM : 4 ≤ M) (hw : 1024 * M ≤ 2 ^ w)
    (cs : List (SxTryCall .s7)) (b : Buf .bytes) (hb : b.length ≤ M)
    (h : ∀ c ∈ cs, SxTryCall.Small M c) (hp : SxTryCall.execAllBytes cs b ≠ .panic) :
    SxTryCall.execAllBytesU (.wrapping w) cs b = SxTryCall.execAllBytes cs b := by
  have e := C66_sysex_bytes_try_history_exact hM hw cs b hb h
  rw [(C66_sysex_bytes_try_history w cs b (by rw [e]; exact hp)).1, e]

-- C66: without overflow checks a splice whose range ends before it begins goes on, on an array too.
example : SxTryCall.execAllBytesU (.checked 64) [.splicePayload ⟨[], 0, some 0⟩ (.included 5) (.excluded 2)]
      [0xF0, 1, 2, 3, 4, 5, 6, 0xF7, 0, 0, 0, 0] = .panic ∧
    SxTryCall.execAllBytesU (.wrapping 64) [.splicePayload ⟨[], 0, some 0⟩ (.included 5) (.excluded 2)]
      [0xF0, 1, 2, 3, 4, 5, 6, 0xF7, 0, 0, 0, 0] =
        .ok ([0xF0, 1, 2, 3, 4, 5, 3, 4, 5, 6, 0xF7, 0], [none]) := by decide +kernel

end Midi2
