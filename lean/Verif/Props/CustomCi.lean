import Verif.Props.Ci
import Verif.Props.CustomRoomy
import Verif.Props.CustomBytes

/-!
# C62, C43: discovery queries over buffers written by the user
-/

namespace Midi2

open Sxb

theorem keeps_two {f : Buf .bytes → Nat → Buf .bytes} (hf : Roomy f) (t : Buf .bytes) {n : Nat}
    (hn : 2 ≤ n) : f (raw [] t) n = raw [] ((f (raw [] t) n).drop 2) := by
  have hl := hf.length (raw [] t) n
  have h0 := hf.keeps (raw [] t) n 0 (by omega) (by simp [raw])
  have h1 := hf.keeps (raw [] t) n 1 (by omega) (by simp [raw])
  match hx : f (raw [] t) n with
  | [] => rw [hx] at hl; simp at hl; omega
  | [_] => rw [hx] at hl; simp at hl; omega
  | a :: c :: s =>
    rw [hx] at h0 h1
    have e0 : a = startByte := Option.some.inj h0
    have e1 : c = endByte := Option.some.inj h1
    rw [e0, e1]
    rfl

/-- `resize` and `try_resize` write the same bytes. -/
theorem finishOn_eq {f : Buf .bytes → Nat → Buf .bytes} (hf : Roomy f) {v : BitVec 8} {n : Nat}
    (hv : ciSize v = some n) (t : Buf .bytes) :
    Ci.finishOn f v (raw [] t) = Ci.tryFinish v (f (raw [] t) n) := by
  have hnin : Sxb.endByte ∉ ([] : List (BitVec 8)) := by simp
  obtain ⟨hm, hn, -⟩ := ciSize_min hv
  have e0 : n - 2 + 2 = n := by omega
  have hl := hf.length (raw [] t) n
  have hk := keeps_two hf t (n := n) (by omega)
  unfold Ci.finishOn Ci.tryFinish resizeGrow tryResizeFixed
  rw [hm, e0, payloadSize_raw hnin, hk, payloadSize_raw hnin, ← hk]
  simp only [Res.ok_bind, List.length_nil]
  generalize f (raw [] t) n = c at hl
  rw [if_pos (by omega : n - 2 > 0)]
  simp only [decide_eq_true hl, if_true]
  rw [if_pos (by omega : n > 0)]
  obtain ⟨c1, h1⟩ : ∃ c1, modifyAt c (0 + 1) (fun _ => (0 : BitVec 8)) = .ok c1 :=
    ⟨_, modifyAt_lt (by omega) _⟩
  have l1 := modifyAt_length h1
  rw [h1]
  simp only [Res.ok_bind]
  obtain ⟨c2, h2⟩ : ∃ c2, modifyAt c1 (n - 1) (fun _ => endByte) = .ok c2 :=
    ⟨_, modifyAt_lt (by omega) _⟩
  have l2 := modifyAt_length h2
  have hu : usub n 1 = .ok (n - 1) := by unfold usub; rw [if_pos (by omega)]
  rw [hu]
  simp only [Res.ok_bind]
  rw [h2]
  simp only [Res.ok_bind]
  show (Ci.writeVersion v c2 >>= fun b => Ci.init v b) = _
  unfold Ci.writeVersion
  rw [if_pos (by omega)]
  rfl

/-- The two bytes a new message starts with. -/
theorem sxb_newOn {f : Buf .bytes → Nat → Buf .bytes} (hf : Roomy f) (b : Buf .bytes) :
    Sxb.newWithBufferOn f b = .ok (raw [] ((f b 2).drop 2)) ∧
    Sxb.newOn f b = .ok (raw [] ((f b 2).drop 2)) := by
  have hl := hf.length b 2
  refine ⟨rfl, ?_⟩
  unfold Sxb.newOn
  match hx : f b 2 with
  | [] => rw [hx] at hl; simp at hl
  | [_] => rw [hx] at hl; simp at hl
  | a :: c :: s => rfl

/-- C62: `new()` and `new_with_buffer()` of a discovery query over a buffer that gives at least the
size asked for make the query with default values, whatever the buffer held: all bytes up to `F7` are
determined but for four bits of byte 25 that have no meaning, which are left as the buffer had them.
`rest` is what the buffer has beyond the size asked for. -/
theorem C62_discovery_new {f : List (BitVec 8) → Nat → List (BitVec 8)} (hf : Roomy f) {v : BitVec 8}
    {n : Nat} (hv : ciSize v = some n) (b : List (BitVec 8)) :
    ∃ w rest, Ci.newWithBufferOn f v b = .ok (ciDefault v (w &&& 0xE1) ++ rest) ∧
      Ci.newOn f v b = .ok (ciDefault v (w &&& 0xE1) ++ rest) ∧
      (Grows f → rest = []) ∧ (ClearsRest f → w.toNat < 128) ∧
      (AddsZeros f → (∀ x ∈ b, x = 0) → w = 0) := by
  obtain ⟨e1, e2⟩ := sxb_newOn hf b
  obtain ⟨hm, hn, -⟩ := ciSize_min hv
  have hl := hf.length (raw [] ((f b 2).drop 2)) n
  have hk := keeps_two hf ((f b 2).drop 2) (n := n) (by omega)
  obtain ⟨w, h1, h2⟩ := ci_finish hv ((f (raw [] ((f b 2).drop 2)) n).drop 2) (by
    rw [List.length_drop]; omega)
  have h3 : Ci.finishOn f v (raw [] ((f b 2).drop 2)) = _ :=
    (finishOn_eq hf hv _).trans ((congrArg _ hk).trans h2)
  rw [List.getElem?_drop] at h1
  refine ⟨w, ((f (raw [] ((f b 2).drop 2)) n).drop 2).drop (n - 2), ?_, ?_, fun hg => ?_, fun hc => ?_, fun hz hb => ?_⟩
  · unfold Ci.newWithBufferOn
    rw [e1, Res.ok_bind, h3]
  · unfold Ci.newOn
    rw [e2, Res.ok_bind, h3]
  · rw [List.drop_drop]
    apply List.drop_eq_nil_of_le
    rw [hg.length]
    omega
  · by_cases hi : (raw [] ((f b 2).drop 2)).length ≤ 25
    · exact hc _ n 25 w (.inr hi) h1
    · rw [hf.keeps _ n 25 (by omega) (by omega)] at h1
      have h4 : (f b 2)[25]? = some w := by
        have : (raw [] ((f b 2).drop 2))[25]? = ((f b 2).drop 2)[23]? := rfl
        rw [this, List.getElem?_drop] at h1
        exact h1
      exact hc b 2 25 w (.inl (by omega)) h4
  · rcases hz _ n 25 w h1 with h | h
    · exact h
    · have : (raw [] ((f b 2).drop 2))[25]? = ((f b 2).drop 2)[23]? := rfl
      rw [this, List.getElem?_drop] at h
      rcases hz b 2 25 w h with h | h
      · exact h
      · exact hb w (List.mem_of_getElem? h)

/-- The query with default values and anything in the bits without meaning. -/
theorem C62_discovery_default {v : BitVec 8} {n : Nat} (hv : ciSize v = some n) {w : BitVec 8}
    (hw : w.toNat < 128) (rest : List (BitVec 8)) :
    IsDiscoveryQuery v (ciDefault v (w &&& 0xE1) ++ rest) ∧
    Ci.tryFrom v (ciDefault v (w &&& 0xE1) ++ rest) = .ok (ciDefault v (w &&& 0xE1) ++ rest) ∧
    Ci.data (ciDefault v (w &&& 0xE1) ++ rest) = .ok (ciDefault v (w &&& 0xE1)) ∧
    ∀ f : CiField, f.version.toNat ≤ v.toNat →
      Ci.get f (ciDefault v (w &&& 0xE1) ++ rest) = .ok f.default := by
  have hx : ∀ w : BitVec 8, w.toNat < 128 →
      ((w &&& 0xE1).setWidth 7).setWidth 8 = w &&& 0xE1 := by decide +kernel
  have hbits : ∀ w : BitVec 8, U8.bit (w &&& 0xE1) 3 = false ∧ U8.bit (w &&& 0xE1) 4 = false ∧
      U8.bit (w &&& 0xE1) 5 = false ∧ U8.bit (w &&& 0xE1) 6 = false := by decide +kernel
  have h1 : ∃ l : List (BitVec 7), l.length + 2 = n ∧ ciDefault v (w &&& 0xE1) = sysexBytes l := by
    have := hx w hw
    rcases ciSize_cases hv with ⟨rfl, rfl⟩ | ⟨rfl, rfl⟩
    · refine ⟨[0x7E, 0x7F, 0x0D, 0x70, 1, 0, 0, 0, 0, 0x7F, 0x7F, 0x7F, 0x7F, 0, 0, 0, 0, 0, 0, 0,
        0, 0, 0, 0, (w &&& 0xE1).setWidth 7, 0, 0, 0, 0], rfl, ?_⟩
      simp only [sysexBytes, List.map_cons, this]
      rfl
    · refine ⟨[0x7E, 0x7F, 0x0D, 0x70, 2, 0, 0, 0, 0, 0x7F, 0x7F, 0x7F, 0x7F, 0, 0, 0, 0, 0, 0, 0,
        0, 0, 0, 0, (w &&& 0xE1).setWidth 7, 0, 0, 0, 0, 0], rfl, ?_⟩
      simp only [sysexBytes, List.map_cons, this]
      rfl
  obtain ⟨l, hl, he⟩ := h1
  have hq : IsDiscoveryQuery v (ciDefault v (w &&& 0xE1) ++ rest) := by
    refine ⟨⟨l, rest, n, hv, by omega, ?_⟩, ?_, ?_⟩
    · rw [he]; simp [sysexBytes]
    · rcases ciSize_cases hv with ⟨rfl, rfl⟩ | ⟨rfl, rfl⟩ <;> rfl
    · rcases ciSize_cases hv with ⟨rfl, rfl⟩ | ⟨rfl, rfl⟩ <;> rfl
  obtain ⟨b3, b4, b5, b6⟩ := hbits w
  refine ⟨hq, query_accepted hq, ?_, ?_⟩
  · rw [he]; exact (holdsBytes l rest).data
  · intro f hf
    rcases ciSize_cases hv with ⟨rfl, rfl⟩ | ⟨rfl, rfl⟩
    · cases f <;> first
        | exact absurd hf (by decide)
        | rfl
        | exact congrArg Res.ok b3
        | exact congrArg Res.ok b4
        | exact congrArg Res.ok b5
        | exact congrArg Res.ok b6
    · cases f <;> first
        | rfl
        | exact congrArg Res.ok b3
        | exact congrArg Res.ok b4
        | exact congrArg Res.ok b5
        | exact congrArg Res.ok b6

/-- C62: so if what the buffer adds is below `0x80`, any setter calls on the new message give a query
with the values set, as over `Vec` (C43).  `rest` is what the buffer has behind the message. -/
theorem C62_discovery_history_partial {f : List (BitVec 8) → Nat → List (BitVec 8)} (hf : Roomy f)
    (h7 : ClearsRest f) {v : BitVec 8} {n : Nat} (hv : ciSize v = some n) (b : List (BitVec 8))
    (cs : List CiCall) (hc : ∀ c ∈ cs, c.1.version.toNat ≤ v.toNat) :
    ∃ b', (Ci.newWithBufferOn f v b >>= CiCall.run cs) = .ok b' ∧
      (Ci.newOn f v b >>= CiCall.run cs) = .ok b' ∧ IsDiscoveryQuery v b' ∧
      (∃ d, Ci.data b' = .ok d ∧ d.length = n) ∧
      ∀ f : CiField, f.version.toNat ≤ v.toNat → Ci.get f b' = .ok (CiCall.values cs CiField.default f) := by
  obtain ⟨w, rest, e1, e2, -, e4, -⟩ := C62_discovery_new hf hv b
  obtain ⟨q1, -, q3, q4⟩ := C62_discovery_default hv (e4 h7) rest
  obtain ⟨b', d, d', r1, r2, r3, r4, r5, r6, -⟩ := C43_history cs q1 hc CiField.default q4
  refine ⟨b', by rw [e1]; exact r1, by rw [e2]; exact r1, r2, ⟨d', r5, ?_⟩, r3⟩
  rw [q3] at r4
  cases r4
  rw [r6]
  rcases ciSize_cases hv with ⟨rfl, rfl⟩ | ⟨rfl, rfl⟩ <;> rfl

/-- C62 is violated: a query made by `new()` over a buffer that is filled with `FF` when it grows has
a byte of eight bits in its payload, which cannot be read. -/
theorem C62_discovery_violation : Grows (growAll 0xFF 8) ∧
    ∃ b', Ci.newOn (growAll 0xFF 8) 2 [] = .ok b' ∧ b' = ciDefault 2 0xE1 ∧
      Sxb.payloadList b' = .panic :=
  ⟨growFilled_grows _, ciDefault 2 0xE1, by decide +kernel⟩

/-- C62: over buffers of limited capacity the fallible constructors fail with `BufferOverflow` exactly
if it is below the size of the version; otherwise they make the same query. -/
theorem C62_discovery_try_new {f : List (BitVec 8) → Nat → List (BitVec 8) × Bool} {cap : Nat}
    (hf : TryGrows f cap) {v : BitVec 8} {n : Nat} (hv : ciSize v = some n) (b : List (BitVec 8)) :
    (cap < n → Ci.tryNewWithBufferOn f v b = .err .bufferOverflow ∧
      Ci.tryNewOn f v b = .err .bufferOverflow) ∧
    (n ≤ cap → ∃ w, Ci.tryNewWithBufferOn f v b = .ok (ciDefault v (w &&& 0xE1)) ∧
      Ci.tryNewOn f v b = .ok (ciDefault v (w &&& 0xE1)) ∧
      (f [0xF0, 0xF7] n).1[25]? = some w) := by
  obtain ⟨hm, hn, -⟩ := ciSize_min hv
  have hnin : Sxb.endByte ∉ ([] : List (BitVec 8)) := by simp
  have e0 : n - 2 + 2 = n := by omega
  have n1 : Sxb.tryNewWithBufferOn f b = if 2 ≤ cap then .ok (raw [] []) else .err .bufferOverflow :=
    (C62_try_new_with_buffer_rest cap).1 f b hf
  have n2 : Sxb.tryNewOn f b = if 2 ≤ cap then .ok (raw [] []) else .err .bufferOverflow := by
    unfold Sxb.tryNewOn
    by_cases h : 2 ≤ cap
    · rw [if_pos h]
      have hl := hf.length b 2 h
      simp only [hf.ok b _ h, if_true]
      match hx : (f b 2).1, hl with
      | [a, c], _ => rfl
    · rw [if_neg h, hf.full b 2 (by omega)]
      rfl
  unfold Ci.tryNewWithBufferOn Ci.tryNewOn
  rw [n1, n2]
  refine ⟨fun hlt => ?_, fun hle => ?_⟩
  · by_cases h : 2 ≤ cap
    · rw [if_pos h, Res.ok_bind]
      have : Ci.tryFinishOn f v (raw [] []) = .err .bufferOverflow := by
        unfold Ci.tryFinishOn tryResizeGrow
        rw [hm, e0, payloadSize_raw hnin, hf.full _ n hlt]
        rfl
      exact ⟨this, this⟩
    · rw [if_neg h]
      exact ⟨rfl, rfl⟩
  · rw [if_pos (by omega), Res.ok_bind]
    have hl := hf.length (raw [] []) n hle
    have h0 := hf.keeps (raw [] []) n 0 hle (by omega) (by decide)
    have h1 := hf.keeps (raw [] []) n 1 hle (by omega) (by decide)
    obtain ⟨t, ht⟩ : ∃ t, (f (raw [] []) n).1 = raw [] t := by
      match hx : (f (raw [] []) n).1 with
      | [] => rw [hx] at hl; simp at hl; omega
      | [_] => rw [hx] at hl; simp at hl; omega
      | a :: c :: s =>
        rw [hx] at h0 h1
        have e0 : a = startByte := Option.some.inj h0
        have e1 : c = endByte := Option.some.inj h1
        exact ⟨s, by rw [e0, e1]; rfl⟩
    have hp : f (raw [] []) n = (raw [] t, true) := Prod.ext ht (hf.ok _ n hle)
    rw [ht] at hl
    have hE : Ci.tryFinishOn f v (raw [] []) = Ci.tryFinish v (raw [] t) := by
      unfold Ci.tryFinishOn Ci.tryFinish tryResizeGrow tryResizeFixed
      rw [hm, e0, payloadSize_raw hnin, payloadSize_raw hnin, hp]
      simp only [Res.ok_bind, if_true, decide_eq_true (Nat.le_of_eq hl.symm)]
      rfl
    obtain ⟨w, w1, w2⟩ := ci_finish hv t (by rw [Sxb.raw_length] at hl; simp at hl; omega)
    have hd : t.drop (n - 2) = [] := List.drop_eq_nil_of_le (by
      rw [Sxb.raw_length] at hl; simp at hl; omega)
    rw [hd, List.append_nil] at w2
    have hr : Ci.tryFinishOn f v (raw [] []) = .ok (ciDefault v (w &&& 0xE1)) := hE.trans w2
    refine ⟨w, hr, hr, ?_⟩
    have : (f [0xF0, 0xF7] n).1 = raw [] t := ht
    rw [this]
    exact w1

example : TryGrows (tryGrowFilled 40 (0x11 : BitVec 8)) 40 ∧
    Ci.tryNewOn (tryGrowFilled 40 0x11) 2 [] = .ok (ciDefault 2 1) ∧
    Ci.tryNewWithBufferOn (tryGrowFilled 31 0x11) 2 [1, 2, 3] = .err .bufferOverflow :=
  ⟨tryGrowFilled_grows _ _, by decide +kernel, by decide +kernel⟩

-- Pages of ten bytes, two calls.
example : Roomy (growCleared 10 8) ∧ ClearsRest (growCleared 10 8) ∧
    ∃ b', (Ci.newWithBufferOn (growCleared 10 8) 1 [1, 2, 3] >>= CiCall.run
        [⟨.source, (0x0ABCDEF : BitVec 28)⟩, ⟨.deviceFamily, (300 : BitVec 14)⟩]) = .ok b' ∧
      b'.length = 40 ∧ Ci.get .source b' = .ok (0x0ABCDEF : BitVec 28) ∧
      Ci.get .modelNumber b' = .ok (0 : BitVec 14) := by
  refine ⟨growCleared_roomy _ _ (by decide), growCleared_clears _, ?_⟩
  refine ⟨[0xF0, 0x7E, 0x7F, 0x0D, 0x70, 1, 0x6F, 0x1B, 0x2F, 5, 0x7F, 0x7F, 0x7F, 0x7F, 0, 0, 0, 0x2C,
    2, 0, 0, 0, 0, 0, 0, 0, 0, 0, 0, 0, 0xF7, 0, 0, 0, 0, 0, 0, 0, 0, 0], ?_⟩
  decide +kernel

end Midi2
