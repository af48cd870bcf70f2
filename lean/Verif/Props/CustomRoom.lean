import Verif.Lemmas.Room
import Verif.Props.Custom

/-!
# C62: buffers with a capacity, whatever the iterators announce

The library asks the buffer for as many units as the size hint says, and for ever more if there
are more items.  A buffer with a capacity that has room for that grants everything.
-/

namespace Midi2

open Sx

/-- C62: any sequence of calls on a message over a buffer with enough room for what the library
asks for: every call succeeds, whatever the iterators announce and wherever bytes are replaced,
and the message has the group and bytes that the same calls make of a plain list. -/
theorem C62_sysex_room (k : Sx) (dbg : Bool) (cap : Nat) (hcap : k.layout.words ≤ cap)
    (f : (w : Nat) → List (BitVec w) → Nat → List (BitVec w) × Bool) (hf : TryGrows (f 32) cap)
    (b0 : Buf .ump) (cs : List (SxTryCall k)) (hr : SxTryCall.AllRoomy cap cs (0, [])) :
    ∃ b b', k.tryNewWithBufferOn (f 32) b0 = .ok b ∧
      SxTryCall.execAllOn (.tryGrow f) dbg cs b = .ok (b', cs.map fun _ => none) ∧
      k.Holds b' (SxTryCall.wantAll cs (0, [])).1 (SxTryCall.wantAll cs (0, [])).2 ∧
      b'.length ≤ cap ∧ k.data b' = .ok b' ∧ (k = .s7 → k.tryFrom b' = .ok b') := by
  obtain ⟨b, e, S⟩ := newVec_strict k dbg
  have hnew := (C62_try_new_with_buffer cap).2 k (f 32) b0 hf
  rw [if_pos hcap, e] at hnew
  rw [words_eq] at hcap
  have S0 : CapStrict k dbg 0 cap b [] := by
    refine ⟨strict_any S, ?_⟩
    rw [S.exact rfl]
    have : k.count ([] : List k.Byte).length = 1 := by cases k <;> rfl
    rw [this]
    omega
  obtain ⟨b', e', S'⟩ := room_history hf cs b (0, []) hr S0
  exact ⟨b, b', hnew, e', S'.1.holds, S'.2, S'.1.data_self, strict_accepted S'.1⟩

-- C62: iterators that announce nothing, one of which replaces bytes in the middle, in 12 words.
example :
    let cs : List (SxTryCall .s7) := [.setGroup 3, .setPayload ⟨[1, 2, 3, 4, 5, 6, 7], 0, none⟩,
      .splicePayload ⟨[8, 9, 10], 0, none⟩ (.included 1) (.excluded 3)]
    SxTryCall.AllRoomy 12 cs (0, []) ∧
    SxTryCall.wantAll cs (0, []) = (3, [1, 8, 9, 10, 4, 5, 6, 7]) ∧
    SxTryCall.execAllOn (.tryGrow (tryGrowAll 12 0)) true cs [0x30000000, 0] =
      .ok ([0x33160108, 0x090A0405, 0x33320607, 0], [none, none, none]) :=
  ⟨⟨trivial, by decide +kernel, trivial, by decide +kernel, ⟨by decide, by decide⟩,
      by decide +kernel, trivial⟩,
    by decide +kernel, by decide +kernel⟩

/-- C62: over a buffer of capacity `cap`, after any sequence of calls with whatever results, the
next call never panics.  It succeeds, and the message has the bytes asked for, or returns
`BufferOverflow`, and the message is empty.  It succeeds if there is room for what the library
makes room for, and, if the iterator announces exactly its items, whenever the bytes fit; it does
not succeed if they do not fit.  Missing: calls that replace bytes in the middle by an iterator
that announces another number of items than it yields, in a buffer without that much room. -/
theorem C62_limited_partial (k : Sx) (dbg : Bool) (cap : Nat) (hcap : k.layout.words ≤ cap)
    (f : (w : Nat) → List (BitVec w) → Nat → List (BitVec w) × Bool) (hf : TryGrows (f 32) cap)
    (b0 : Buf .ump) :
    ∃ b, k.tryNewWithBufferOn (f 32) b0 = .ok b ∧
    ∀ (cs : List (SxTryCall k)) (b1 : Buf .ump) (es : List (Option Error)),
      SxTryCall.execAllOn (.tryGrow f) dbg cs b = .ok (b1, es) →
      SxTryCall.AllFair cap cs es (0, []) →
      let s := SxTryCall.afterAll cs es (0, [])
      k.Holds b1 s.1 s.2 ∧
      ∀ c : SxTryCall k, c.Fair cap s.2 →
        ∃ b2 e, c.execOn (.tryGrow f) dbg b1 = .ok (b2, e) ∧
          (e = none ∨ e = some .bufferOverflow) ∧
          k.Holds b2 (c.after s e).1 (c.after s e).2 ∧ b2.length ≤ cap ∧ k.data b2 = .ok b2 ∧
          (k = .s7 → k.tryFrom b2 = .ok b2) ∧
          (k.layout.wireLength (c.room s.2) ≤ 4 * cap → e = none) ∧
          (4 * cap < k.layout.wireLength (c.wanted s.2).length → e = some .bufferOverflow) ∧
          (c.ExactHint → k.layout.wireLength (c.wanted s.2).length ≤ 4 * cap → e = none) := by
  obtain ⟨b, e, S⟩ := newVec_strict k dbg
  have hnew := (C62_try_new_with_buffer cap).2 k (f 32) b0 hf
  rw [if_pos hcap, e] at hnew
  rw [words_eq] at hcap
  have S0 : CapStrict k dbg 0 cap b [] := by
    refine ⟨strict_any S, ?_⟩
    rw [S.exact rfl]
    have : k.count ([] : List k.Byte).length = 1 := by cases k <;> rfl
    rw [this]
    omega
  refine ⟨b, hnew, fun cs b1 es h hfair => ?_⟩
  have key : ∀ (cs : List (SxTryCall k)) (b b1 : Buf .ump) (es : List (Option Error))
      (s : BitVec 4 × List k.Byte), CapStrict k dbg s.1 cap b s.2 →
      SxTryCall.execAllOn (.tryGrow f) dbg cs b = .ok (b1, es) → SxTryCall.AllFair cap cs es s →
      CapStrict k dbg (SxTryCall.afterAll cs es s).1 cap b1 (SxTryCall.afterAll cs es s).2 := by
    intro cs
    induction cs with
    | nil =>
      intro b b1 es s S h _
      cases h
      exact S
    | cons c cs ih =>
      intro b b1 es s S h hfair
      simp only [SxTryCall.execAllOn] at h
      obtain ⟨⟨b2, e2⟩, h1, h⟩ := Res.of_bind_ok h
      obtain ⟨⟨b3, es3⟩, h2, h⟩ := Res.of_bind_ok h
      cases h
      obtain ⟨b', e', f1, -, f3, -⟩ := fair_exec hcap hf S c hfair.1
      rw [h1] at f1
      cases f1
      exact ih b2 _ es3 _ f3 h2 hfair.2
  have S1 := key cs b b1 es (0, []) S0 h hfair
  refine ⟨S1.1.holds, fun c hc => ?_⟩
  obtain ⟨b2, e, f1, f2, f3, f4⟩ := fair_exec hcap hf S1 c hc
  exact ⟨b2, e, f1, f2, f3.1.holds, f3.2, f3.1.data_self, strict_accepted f3.1, f4⟩

-- C62: a refusal in 8 words, and what can be done afterwards.
example :
    let cs : List (SxTryCall .s7) := [.setGroup 3, .setPayload ⟨List.replicate 20 1, 0, none⟩]
    SxTryCall.execAllOn (.tryGrow (tryGrowAll 8 0)) true cs [0x30000000, 0] =
      .ok ([0x33000101, 0x01010101], [none, some .bufferOverflow]) ∧
    SxTryCall.AllFair 8 cs [none, some .bufferOverflow] (0, []) ∧
    SxTryCall.afterAll cs [none, some .bufferOverflow] (0, []) = (3, []) ∧
    SxTryCall.Fair 8 [] (.setPayload ⟨List.replicate 12 1, 0, none⟩ : SxTryCall .s7) ∧
    (Sx.s7.ops true (.tryGrow (tryGrowAll 8 0))).trySetPayload [0x33000101, 0x01010101]
      ⟨List.replicate 12 1, 0, none⟩ =
      .ok ([0x33160101, 0x01010101, 0x33360101, 0x01010101], none) :=
  ⟨by decide +kernel, ⟨⟨trivial, .inl trivial⟩, ⟨trivial, .inl trivial⟩, trivial⟩, by decide +kernel,
    ⟨trivial, .inl trivial⟩, by decide +kernel⟩

end Midi2
