import Verif.Lemmas.UsizeCalls
import Verif.Props.Modes

/-!
# C66: machine integers

The other files compute with unbounded numbers.  Here the same functions are run with numbers of
`w` bits, in a build with overflow checks (`Arith.checked w`, an overflow panics) and in one
without (`Arith.wrapping w`, an overflow wraps around).
-/

namespace Midi2

/-! ### Without overflow nothing changes -/

/-- C66: a history of calls on a sysex message over words which does not panic with overflow
checks has the same outcome without them, and it is the outcome for unbounded numbers. -/
theorem C66_sysex_history {k : Sx} (w : Nat) (dbg : Bool) (cs : List (SxCall k)) (b : Buf .ump)
    (h : SxCall.execAllU (.checked w) dbg cs b ≠ .panic) :
    SxCall.execAllU (.wrapping w) dbg cs b = SxCall.execAllU (.checked w) dbg cs b ∧
    SxCall.execAll dbg cs b = SxCall.execAllU (.checked w) dbg cs b := by
  rw [← SxCall.execAllU_unbounded]
  exact ⟨((Arith.checked_wrapping w).execAll cs dbg b).eq h,
    ((Arith.checked_unbounded w).execAll cs dbg b).eq h⟩

example : SxCall.execAllU (k := .s7) (.checked 64) true
      [.setPayload ⟨[1, 2, 3, 4, 5, 6, 7, 8], 0, none⟩, .insertPayload ⟨[9, 10], 2, some 2⟩ 3]
      [0x30000000, 0] = .ok [0x30160102, 0x03090A04, 0x30340506, 0x07080000] := by decide +kernel

/-- C66 for the fallible calls over buffers of fixed size. -/
theorem C66_sysex_try_history {k : Sx} (w : Nat) (dbg : Bool) (cs : List (SxTryCall k))
    (b : Buf .ump) (h : SxTryCall.execAllU (.checked w) dbg cs b ≠ .panic) :
    SxTryCall.execAllU (.wrapping w) dbg cs b = SxTryCall.execAllU (.checked w) dbg cs b ∧
    SxTryCall.execAll dbg cs b = SxTryCall.execAllU (.checked w) dbg cs b := by
  rw [← SxTryCall.execAllU_unbounded]
  exact ⟨((Arith.checked_wrapping w).tryExecAll cs dbg b).eq h,
    ((Arith.checked_unbounded w).tryExecAll cs dbg b).eq h⟩

example : SxTryCall.execAllU (k := .s8) (.checked 64) true
      [.setPayload ⟨List.replicate 20 1, 20, some 20⟩, .appendByte 3] [0x50010000, 0, 0, 0] =
    .ok ([0x50020003, 0x01010101, 0x01010101, 0x01010101], [some .bufferOverflow, none]) := by
  decide +kernel

/-- C66 for messages over bytes. -/
theorem C66_sysex_bytes_history (w : Nat) (cs : List (SxCall .s7)) (b : Buf .bytes)
    (h : SxCall.execAllBytesU (.checked w) cs b ≠ .panic) :
    SxCall.execAllBytesU (.wrapping w) cs b = SxCall.execAllBytesU (.checked w) cs b ∧
    SxCall.execAllBytes cs b = SxCall.execAllBytesU (.checked w) cs b := by
  rw [← SxCall.execAllBytesU_unbounded]
  exact ⟨((Arith.checked_wrapping w).execAllBytes cs b).eq h,
    ((Arith.checked_unbounded w).execAllBytes cs b).eq h⟩

example : SxCall.execAllBytesU (.checked 64) [.setPayload ⟨[1, 2, 3], 0, none⟩, .appendByte 4]
    [0xF0, 0xF7] = .ok [0xF0, 1, 2, 3, 4, 0xF7] := by decide +kernel

/-- C66 for the payload iterators: of messages over words, of messages over bytes and of
packets. -/
theorem C66_iterators (w : Nat) (cs : List ItCall) :
    (∀ (k : Sx) (b : Buf .ump) (it : Sx.It), ItCall.execAllU (.checked w) k b cs it ≠ .panic →
      ItCall.execAllU (.wrapping w) k b cs it = ItCall.execAllU (.checked w) k b cs it ∧
      ItCall.execAll k b cs it = ItCall.execAllU (.checked w) k b cs it) ∧
    (∀ it : Sxb.It, ItCall.execBytesU (.checked w) cs it ≠ .panic →
      ItCall.execBytesU (.wrapping w) cs it = ItCall.execBytesU (.checked w) cs it ∧
      ItCall.execBytes cs it = ItCall.execBytesU (.checked w) cs it) ∧
    (∀ (dbg withLen : Bool) (k : Sx) (p : Buf .ump) (i : Nat),
      ItCall.packetExecAllU (.checked w) dbg withLen k p cs i ≠ .panic →
      ItCall.packetExecAllU (.wrapping w) dbg withLen k p cs i =
        ItCall.packetExecAllU (.checked w) dbg withLen k p cs i ∧
      ItCall.packetExecAll dbg withLen k p cs i =
        ItCall.packetExecAllU (.checked w) dbg withLen k p cs i) := by
  refine ⟨fun k b it h => ?_, fun it h => ?_, fun dbg withLen k p i h => ?_⟩
  · rw [← ItCall.execAllU_unbounded]
    exact ⟨((Arith.checked_wrapping w).itExecAll k b cs it).eq h,
      ((Arith.checked_unbounded w).itExecAll k b cs it).eq h⟩
  · rw [← ItCall.execBytesU_unbounded]
    exact ⟨((Arith.checked_wrapping w).itExecBytes cs it).eq h,
      ((Arith.checked_unbounded w).itExecBytes cs it).eq h⟩
  · rw [← ItCall.packetExecAllU_unbounded]
    exact ⟨((Arith.checked_wrapping w).itPacketExecAll dbg withLen k p cs i).eq h,
      ((Arith.checked_unbounded w).itPacketExecAll dbg withLen k p cs i).eq h⟩

example : ItCall.execBytesU (.checked 64) [.next, .nth 1] ⟨[5, 6, 7], 0⟩ =
    .ok ([some 5, some 7], ⟨[5, 6, 7], 3⟩) := by decide +kernel

/-! ### Small numbers do not overflow

With buffers, data, size hints and indices of at most `M`, where `1024 * M ≤ 2 ^ w`: 64 words on
a 16-bit target, 4 million on a 32-bit one. -/

/-- C66: with overflow checks the outcome is that for unbounded numbers. -/
theorem C66_sysex_history_exact {k : Sx} {w M : Nat} (hM : 4 ≤ M) (hw : 1024 * M ≤ 2 ^ w)
    (dbg : Bool) (cs : List (SxCall k)) (b : Buf .ump) (h : SxCall.AllSmall M dbg cs b) :
    SxCall.execAllU (.checked w) dbg cs b = SxCall.execAll dbg cs b := by
  rw [← SxCall.execAllU_unbounded]
  exact Res.eq_of_under (SxCall.execAll_fits hM hw cs dbg b h)
    ((Arith.checked_unbounded w).execAll cs dbg b)

/-- C66: so a release build, without overflow checks and assertions, has the outcome of a debug
build which does not panic. -/
theorem C66_sysex_history_release {k : Sx} {w M : Nat} (hM : 4 ≤ M) (hw : 1024 * M ≤ 2 ^ w)
    (cs : List (SxCall k)) (b : Buf .ump) (h : SxCall.AllSmall M true cs b)
    (h' : SxCall.AllSmall M false cs b) (hp : SxCall.execAllU (.checked w) true cs b ≠ .panic) :
    SxCall.execAllU (.wrapping w) false cs b = SxCall.execAllU (.checked w) true cs b := by
  rw [C66_sysex_history_exact hM hw true cs b h] at hp ⊢
  have e := C59_sysex_history cs b hp
  have hf : SxCall.execAllU (.checked w) false cs b ≠ .panic := by
    rw [C66_sysex_history_exact hM hw false cs b h', e]; exact hp
  rw [(C66_sysex_history w false cs b hf).1, C66_sysex_history_exact hM hw false cs b h', e]

/-- C66 for the fallible calls: buffers of fixed size stay as long as they are. -/
theorem C66_sysex_try_history_exact {k : Sx} {w M : Nat} (hM : 4 ≤ M) (hw : 1024 * M ≤ 2 ^ w)
    (dbg : Bool) (cs : List (SxTryCall k)) (b : Buf .ump) (hb : b.length ≤ M)
    (h : ∀ c ∈ cs, SxTryCall.Small M c) :
    SxTryCall.execAllU (.checked w) dbg cs b = SxTryCall.execAll dbg cs b := by
  rw [← SxTryCall.execAllU_unbounded]
  exact Res.eq_of_under (SxTryCall.execAll_fits hM hw cs dbg b hb h)
    ((Arith.checked_unbounded w).tryExecAll cs dbg b)

example : SxTryCall.execAllU (k := .s7) (.checked 16) true [.appendByte 4] [0x30000000, 0] =
    SxTryCall.execAll (k := .s7) true [.appendByte 4] [0x30000000, 0] :=
  C66_sysex_try_history_exact (M := 64) (by decide) (by decide) true _ _ (by decide) (by simp [SxTryCall.Small])

theorem C66_sysex_try_history_release {k : Sx} {w M : Nat} (hM : 4 ≤ M) (hw : 1024 * M ≤ 2 ^ w)
    (cs : List (SxTryCall k)) (b : Buf .ump) (hb : b.length ≤ M)
    (h : ∀ c ∈ cs, SxTryCall.Small M c)
    (hp : SxTryCall.execAllU (.checked w) true cs b ≠ .panic) :
    SxTryCall.execAllU (.wrapping w) false cs b = SxTryCall.execAllU (.checked w) true cs b := by
  rw [C66_sysex_try_history_exact hM hw true cs b hb h] at hp ⊢
  have e := C59_sysex_try_history cs b hp
  have hf : SxTryCall.execAllU (.checked w) false cs b ≠ .panic := by
    rw [C66_sysex_try_history_exact hM hw false cs b hb h, e]; exact hp
  rw [(C66_sysex_try_history w false cs b hf).1, C66_sysex_try_history_exact hM hw false cs b hb h, e]

/-- C66 for messages over bytes. -/
theorem C66_sysex_bytes_history_exact {w M : Nat} (hM : 4 ≤ M) (hw : 1024 * M ≤ 2 ^ w)
    (cs : List (SxCall .s7)) (b : Buf .bytes) (h : SxCall.AllSmallBytes M cs b) :
    SxCall.execAllBytesU (.checked w) cs b = SxCall.execAllBytes cs b := by
  rw [← SxCall.execAllBytesU_unbounded]
  exact Res.eq_of_under (SxCall.execAllBytes_fits hM hw cs b h)
    ((Arith.checked_unbounded w).execAllBytes cs b)

example : SxCall.AllSmallBytes 8 [.appendByte 4] [0xF0, 0xF7] ∧
    SxCall.execAllBytesU (.checked 16) [.appendByte 4] [0xF0, 0xF7] = .ok [0xF0, 4, 0xF7] :=
  ⟨⟨by decide, trivial, fun _ _ => trivial⟩, by decide +kernel⟩

/-- C66 for the iterators: over words `nth` may be given any number; over bytes and on packets
the numbers given to `nth` must not add up to `2 ^ w`. -/
theorem C66_iterators_exact (w : Nat) (cs : List ItCall) :
    (∀ (k : Sx) (b : Buf .ump) (it : Sx.It), 4 * b.length + 16 < 2 ^ w →
      ItCall.execAllU (.checked w) k b cs it = ItCall.execAll k b cs it) ∧
    (∀ it : Sxb.It, it.idx + ItCall.steps cs < 2 ^ w →
      ItCall.execBytesU (.checked w) cs it = ItCall.execBytes cs it) ∧
    (∀ (dbg withLen : Bool) (k : Sx) (p : Buf .ump) (i : Nat), i + ItCall.steps cs + 3 < 2 ^ w →
      ItCall.packetExecAllU (.checked w) dbg withLen k p cs i =
        ItCall.packetExecAll dbg withLen k p cs i) := by
  refine ⟨fun k b it h => ?_, fun it h => ?_, fun dbg withLen k p i h => ?_⟩
  · rw [← ItCall.execAllU_unbounded]
    exact Res.eq_of_under (ItCall.execAll_fits k b h cs it)
      ((Arith.checked_unbounded w).itExecAll k b cs it)
  · rw [← ItCall.execBytesU_unbounded]
    exact Res.eq_of_under (ItCall.execBytes_fits cs it h)
      ((Arith.checked_unbounded w).itExecBytes cs it)
  · rw [← ItCall.packetExecAllU_unbounded]
    exact Res.eq_of_under (ItCall.packetExecAll_fits dbg withLen k p cs i h)
      ((Arith.checked_unbounded w).itPacketExecAll dbg withLen k p cs i)

/-- C66: `payload().collect()` over words. -/
theorem C66_payload_exact (k : Sx) {w : Nat} (b : Buf .ump) (h : 8 * b.length + 16 < 2 ^ w) :
    k.payloadListU (.checked w) b = k.payloadList b ∧
    (k.payloadList b ≠ .panic → k.payloadListU (.wrapping w) b = k.payloadList b) := by
  have e : k.payloadListU (.checked w) b = k.payloadList b := by
    rw [← Sx.payloadListU_unbounded]
    exact Res.eq_of_under (k.payloadList_fits b h) ((Arith.checked_unbounded w).payloadList k b)
  refine ⟨e, fun hp => ?_⟩
  rw [← e] at hp ⊢
  exact ((Arith.checked_wrapping w).payloadList k b).eq hp

-- Four calls on a new message, on a 16-bit target.
example : SxCall.AllSmall (k := .s7) 64 true
      [.setPayload ⟨[1, 2, 3, 4, 5, 6, 7, 8], 0, none⟩, .insertPayload ⟨[9, 10], 2, some 2⟩ 3,
        .appendByte 11, .setPayloadByte 2 12] [0x30000000, 0] ∧
    SxCall.execAllU (k := .s7) (.wrapping 16) false
      [.setPayload ⟨[1, 2, 3, 4, 5, 6, 7, 8], 0, none⟩, .insertPayload ⟨[9, 10], 2, some 2⟩ 3,
        .appendByte 11, .setPayloadByte 2 12] [0x30000000, 0] =
      .ok [0x3016_0102, 0x0C09_0A04, 0x3035_0506, 0x0708_0B00] := by
  refine ⟨⟨by decide, ⟨by decide, by decide, nofun⟩, fun b h => ?_⟩, by decide +kernel⟩
  have e : b = [0x30160102, 0x03040506, 0x30320708, 0] := by
    have : SxCall.exec (k := .s7) true [0x30000000, 0]
      (.setPayload ⟨[1, 2, 3, 4, 5, 6, 7, 8], 0, none⟩) =
        .ok [0x30160102, 0x03040506, 0x30320708, 0] := by decide +kernel
    rw [this] at h; cases h; rfl
  subst e
  refine ⟨by decide, ⟨⟨by decide, by decide, fun u h => by cases h; decide⟩, by decide⟩,
    fun b h => ?_⟩
  have e : b = [0x30160102, 0x03090A04, 0x30340506, 0x07080000] := by
    have : SxCall.exec (k := .s7) true [0x30160102, 0x03040506, 0x30320708, 0]
      (.insertPayload ⟨[9, 10], 2, some 2⟩ 3) =
        .ok [0x30160102, 0x03090A04, 0x30340506, 0x07080000] := by decide +kernel
    rw [this] at h; cases h; rfl
  subst e
  refine ⟨by decide, trivial, fun b h => ?_⟩
  have e : b = [0x30160102, 0x03090A04, 0x30350506, 0x07080B00] := by
    have : SxCall.exec (k := .s7) true [0x30160102, 0x03090A04, 0x30340506, 0x07080000]
      (.appendByte 11) = .ok [0x30160102, 0x03090A04, 0x30350506, 0x07080B00] := by decide +kernel
    rw [this] at h; cases h; rfl
  subst e
  exact ⟨by decide, trivial, fun _ _ => trivial⟩

-- A fallible call which overflows its buffer.
example : SxTryCall.execAllU (k := .s8) (.wrapping 64) false
      [.setPayload ⟨List.replicate 20 1, 20, some 20⟩, .appendByte 3] [0x50010000, 0, 0, 0] =
    .ok ([0x50020003, 0x01010101, 0x01010101, 0x01010101], [some .bufferOverflow, none]) := by decide +kernel

/-! ### Where a release build goes on after an overflow -/

/-- C66: what a debug build rejects a release build may do.  On 64-bit targets: a splice of the
range `5..2` doubles the bytes in between; `len()` of the payload of a `Sysex8` packet which says
it has no stream id is `usize::MAX`, and iterating it returns 13 bytes; `nth(usize::MAX)` on the
payload of a byte message goes back by one. -/
theorem C66_release_violation :
    (∃ b b' : Buf .ump, Sx.s7.tryFrom b = .ok b ∧ Sx.s7.payloadList b = .ok [1, 2, 3, 4, 5, 6, 7, 8] ∧
      SxCall.execAllU (k := .s7) (.checked 64) true
        [.splicePayload ⟨[], 0, some 0⟩ (.included 5) (.excluded 2)] b = .panic ∧
      SxCall.execAllU (k := .s7) (.wrapping 64) false
        [.splicePayload ⟨[], 0, some 0⟩ (.included 5) (.excluded 2)] b = .ok b' ∧
      Sx.s7.payloadList b' = .ok [1, 2, 3, 4, 5, 3, 4, 5, 6, 7, 8]) ∧
    (∃ p : Buf .ump, Packet.tryFrom p = .ok (.sysex8, p) ∧
      Packet.lenU (.checked 64) true .s8 p 0 = .panic ∧
      Packet.lenU (.wrapping 64) false .s8 p 0 = .ok (2 ^ 64 - 1) ∧
      (ItCall.packetExecAllU (.wrapping 64) false false .s8 p (List.replicate 13 .next) 0).isOk ∧
      ItCall.packetExecAllU (.wrapping 64) false false .s8 p (List.replicate 14 .next) 0 = .panic) ∧
    (∃ (b : Buf .bytes) (it : Sxb.It), Sxb.tryFrom b = .ok b ∧ Sxb.payload b = .ok it ∧
      ItCall.execBytesU (.checked 64) [.next, .nth (2 ^ 64 - 1)] it = .panic ∧
      (ItCall.execBytesU (.wrapping 64) [.next, .nth (2 ^ 64 - 1)] it).bind (fun r => .ok r.1) =
        .ok [some 5, some 5] ∧
      (ItCall.execBytes [.next, .nth (2 ^ 64 - 1)] it).bind (fun r => .ok r.1) =
        .ok [some 5, none]) := by
  refine ⟨⟨[0x30160102, 0x03040506, 0x30320708, 0], [0x30160102, 0x03040503, 0x30350405, 0x06070800],
    ?_, ?_, ?_, ?_, ?_⟩, ⟨[0x50000000, 0x01020304, 0, 0], ?_, ?_, ?_, ?_, ?_⟩,
    ⟨[0xF0, 5, 6, 0xF7], ⟨[5, 6], 0⟩, ?_, ?_, ?_, ?_, ?_⟩⟩ <;> decide +kernel

end Midi2
