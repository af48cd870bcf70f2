import Verif.Model.UsizeText
import Verif.Lemmas.Usize
import Verif.Lemmas.Text

/-! # Text messages with machine integers: where nothing overflows -/

namespace Midi2

/-- Arithmetic that is exact as long as results are below `2 ^ w` and not below zero. -/
structure Arith.Exact (w : Nat) (A : Arith) : Prop where
  sub : ∀ {a b}, b ≤ a → A.sub a b = .ok (a - b)
  add : ∀ {a b}, a + b < 2 ^ w → A.add a b = .ok (a + b)
  mul : ∀ {a b}, a * b < 2 ^ w → A.mul a b = .ok (a * b)

theorem Arith.unbounded_exact (w : Nat) : (unbounded).Exact w where
  sub h := if_pos h
  add _ := rfl
  mul _ := rfl

theorem Arith.checked_exact (w : Nat) : (checked w).Exact w where
  sub h := if_pos h
  add h := if_pos h
  mul h := if_pos h

theorem Arith.wrapping_exact (w : Nat) : (wrapping w).Exact w where
  sub {a b} h := by
    show Res.ok (if b ≤ a then a - b else 2 ^ w + a - b) = _
    rw [if_pos h]
  add {a b} h := by
    show Res.ok (if a + b < 2 ^ w then a + b else (a + b) % 2 ^ w) = _
    rw [if_pos h]
  mul {a b} h := by
    show Res.ok (if a * b < 2 ^ w then a * b else (a * b) % 2 ^ w) = _
    rw [if_pos h]

variable {w : Nat} {A : Arith}

/-! ### Iterators -/

/-- Same iterator on the positions in `I`. -/
structure TextSourceU.Matches (t : TextSourceU) (s : TextSource) (I : TextIt → Prop) : Prop where
  fin : ∀ it, I it → t.finished it = s.finished it
  val : ∀ it, I it → s.finished it = .ok false → t.value it = s.value it
  adv : ∀ it, I it → s.finished it = .ok false →
    t.advance it = .ok (s.advance it) ∧ I (s.advance it)

namespace TextSourceU.Matches

variable {t : TextSourceU} {s : TextSource} {I : TextIt → Prop}

theorem skip (h : t.Matches s I) (fuel : Nat) : ∀ it, I it →
    t.skip fuel it = s.skip fuel it ∧ ∀ it', s.skip fuel it = .ok it' → I it' := by
  induction fuel with
  | zero => intro it hi; exact ⟨rfl, fun it' e => by cases e; exact hi⟩
  | succ fuel ih =>
    intro it hi
    rw [TextSourceU.skip, TextSource.skip, h.fin it hi]
    cases hf : s.finished it with
    | panic => exact ⟨rfl, fun _ e => by cases e⟩
    | err e => exact ⟨rfl, fun _ e => by cases e⟩
    | ok f =>
      cases f with
      | true => exact ⟨rfl, fun it' e => by cases e; exact hi⟩
      | false =>
        simp only [Res.ok_bind, Bool.false_eq_true, if_false]
        rw [h.val it hi hf]
        cases s.value it with
        | panic => exact ⟨rfl, fun _ e => by cases e⟩
        | err e => exact ⟨rfl, fun _ e => by cases e⟩
        | ok v =>
          simp only [Res.ok_bind]
          by_cases hv : (v == 0) = true
          · rw [if_pos hv, if_pos hv, (h.adv it hi hf).1]
            exact ih _ (h.adv it hi hf).2
          · rw [if_neg hv, if_neg hv]
            exact ⟨rfl, fun it' e => by cases e; exact hi⟩

theorem next (h : t.Matches s I) (fuel : Nat) (it : TextIt) (hi : I it) :
    t.next fuel it = s.next fuel it ∧ ∀ v it', s.next fuel it = .ok (v, it') → I it' := by
  obtain ⟨h1, h2⟩ := h.skip fuel it hi
  rw [TextSourceU.next, TextSource.next, h1]
  cases hs : s.skip fuel it with
  | panic => exact ⟨rfl, fun _ _ e => by cases e⟩
  | err e => exact ⟨rfl, fun _ _ e => by cases e⟩
  | ok it' =>
    have hi' := h2 it' hs
    simp only [Res.ok_bind]
    rw [h.fin it' hi']
    cases hf : s.finished it' with
    | panic => exact ⟨rfl, fun _ _ e => by cases e⟩
    | err e => exact ⟨rfl, fun _ _ e => by cases e⟩
    | ok f =>
      cases f with
      | true => exact ⟨rfl, fun _ _ e => by cases e; exact hi'⟩
      | false =>
        simp only [Res.ok_bind, Bool.false_eq_true, if_false]
        rw [h.val it' hi' hf]
        cases s.value it' with
        | panic => exact ⟨rfl, fun _ _ e => by cases e⟩
        | err e => exact ⟨rfl, fun _ _ e => by cases e⟩
        | ok v =>
          simp only [Res.ok_bind]
          rw [(h.adv it' hi' hf).1]
          exact ⟨rfl, fun _ _ e => by cases e; exact (h.adv it' hi' hf).2⟩

theorem collect (h : t.Matches s I) (fuel n : Nat) : ∀ it, I it →
    t.collect fuel n it = s.collect fuel n it := by
  induction n with
  | zero => intro it _; rfl
  | succ n ih =>
    intro it hi
    obtain ⟨h1, h2⟩ := h.next fuel it hi
    rw [TextSourceU.collect, TextSource.collect, h1]
    cases hs : s.next fuel it with
    | panic => rfl
    | err e => rfl
    | ok r =>
      obtain ⟨_ | v, it'⟩ := r
      · rfl
      · simp only [Res.ok_bind]
        rw [ih it' (h2 _ _ hs)]

/-- With a size hint that does not panic, `collect` gives the same list. -/
theorem collectVec (h : t.Matches s I) (fuel n : Nat) (it : TextIt) (hi : I it)
    {x : Nat × Nat} (hx : t.hint = .ok x) :
    t.collectVec fuel n it = s.collect fuel (n + 1) it := by
  obtain ⟨h1, h2⟩ := h.next fuel it hi
  rw [TextSourceU.collectVec, TextSource.collect, h1]
  cases hs : s.next fuel it with
  | panic => rfl
  | err e => rfl
  | ok r =>
    obtain ⟨_ | v, it'⟩ := r
    · rfl
    · simp only [Res.ok_bind, hx]
      rw [h.collect fuel n it' (h2 _ _ hs)]

/-- With one that panics, only an empty list can be collected. -/
theorem collectVec_panic (h : t.Matches s I) (fuel n : Nat) (it : TextIt) (hi : I it)
    (hx : t.hint = .panic) (l : List (BitVec 8)) (hl : s.collect fuel (n + 1) it = .ok l) :
    t.collectVec fuel n it = if l = [] then .ok [] else .panic := by
  obtain ⟨h1, _⟩ := h.next fuel it hi
  rw [TextSource.collect] at hl
  rw [TextSourceU.collectVec, h1]
  cases hs : s.next fuel it with
  | panic => rw [hs] at hl; cases hl
  | err e => rw [hs] at hl; cases hl
  | ok r =>
    rw [hs] at hl
    obtain ⟨_ | v, it'⟩ := r
    · cases hl; rfl
    · simp only [Res.ok_bind] at hl
      have : l ≠ [] := by
        cases hc : s.collect fuel n it' with
        | ok l' => rw [hc] at hl; cases hl; simp
        | err e => rw [hc] at hl; cases hl
        | panic => rw [hc] at hl; cases hl
      simp only [Res.ok_bind, hx, if_neg this]
      rfl

end TextSourceU.Matches

namespace FlexText

/-! ### Writing -/

theorem writeLoopU_eq (hA : A.Exact w) (h5 : 5 ≤ w) (vs : List (BitVec 8)) : ∀ (p j : Nat)
    (b : Buf .ump), j < 12 → 12 * p + j + vs.length < 2 ^ w →
    writeLoopU A vs p j b = writeLoop vs p j b := by
  have hw : 2 ^ 5 ≤ 2 ^ w := Nat.pow_le_pow_right (by decide) h5
  induction vs with
  | nil => intros; rfl
  | cons v vs ih =>
    intro p j b hj hl
    rw [List.length_cons] at hl
    rw [writeLoopU, writeLoop, hA.mul (by omega)]
    simp only [Res.ok_bind]
    rw [hA.add (by omega)]
    simp only [Res.ok_bind]
    rw [hA.add (by omega)]
    simp only [Res.ok_bind]
    congr 1; funext b
    by_cases h : (j == 11) = true
    · rw [if_pos h, if_pos h, hA.add (by omega)]
      simp only [Res.ok_bind]
      exact ih _ _ _ (by omega) (by have : j = 11 := by simpa using h
                                    omega)
    · rw [if_neg h, if_neg h, hA.add (by omega)]
      simp only [Res.ok_bind]
      exact ih _ _ _ (by have : j ≠ 11 := by simpa using h
                         omega) (by omega)

theorem sizeForStrU_eq (hA : A.Exact w) (h5 : 5 ≤ w) {n : Nat} (hn : n < 2 ^ w)
    (ho : ¬ (n % 12 = 0 ∧ 2 ^ w ≤ 4 * n)) : sizeForStrU A n = .ok (sizeForStr n) := by
  have hw : 2 ^ 5 ≤ 2 ^ w := Nat.pow_le_pow_right (by decide) h5
  rw [sizeForStrU, sizeForStr]
  by_cases h : (n % 12 == 0) = true
  · rw [if_pos h, if_pos h]
    by_cases h0 : (n == 0) = true
    · rw [if_pos h0, if_pos h0]
    · rw [if_neg h0, if_neg h0, hA.mul (by have : n % 12 = 0 := by simpa using h
                                           omega)]
      rfl
  · rw [if_neg h, if_neg h, hA.add (by omega)]
    simp only [Res.ok_bind]
    rw [hA.mul (by omega)]

theorem growBufferU_true (b : Buf .ump) (size : Nat) : growBufferU true b size = growBuffer b size := by
  rw [growBufferU, growBuffer]
  rfl

theorem growBufferU_eq (dbg : Bool) (b : Buf .ump) {size : Nat} (h : size % 4 = 0) (h0 : size ≠ 0) :
    growBufferU dbg b size = growBuffer b size := by
  have e1 : (size % 4 == 0) = true := by simpa using h
  have e2 : (size != 0) = true := by simpa using h0
  rw [growBufferU, growBuffer, e1, e2, Bool.or_true]

theorem sizeForStr_mod (n : Nat) : sizeForStr n % 4 = 0 ∧ sizeForStr n ≠ 0 := by
  rw [sizeForStr]
  by_cases h : (n % 12 == 0) = true
  · have : n % 12 = 0 := by simpa using h
    rw [if_pos h]
    by_cases h0 : (n == 0) = true
    · rw [if_pos h0]; decide
    · have : n ≠ 0 := by simpa using h0
      rw [if_neg h0]; omega
  · rw [if_neg h]; omega

theorem setTextU_eq (hA : A.Exact w) (h5 : 5 ≤ w) (dbg : Bool) (b : Buf .ump) (s : String)
    (hn : (strBytes s).length < 2 ^ w)
    (ho : ¬ ((strBytes s).length % 12 = 0 ∧ 2 ^ w ≤ 4 * (strBytes s).length)) :
    setTextU A dbg b s = setText b s := by
  rw [setTextU, setText, sizeForStrU_eq hA h5 hn ho]
  simp only [Res.ok_bind]
  rw [growBufferU_eq dbg _ (sizeForStr_mod _).1 (sizeForStr_mod _).2]
  congr 1; funext b
  exact writeLoopU_eq hA h5 _ 0 0 b (by decide) (by omega)

theorem trySetTextU_eq (hA : A.Exact w) (h5 : 5 ≤ w) (dbg : Bool) (b : Buf .ump) (s : String)
    (hn : (strBytes s).length < 2 ^ w)
    (ho : ¬ ((strBytes s).length % 12 = 0 ∧ 2 ^ w ≤ 4 * (strBytes s).length)) :
    trySetTextU A dbg b s = trySetText b s := by
  rw [trySetTextU, trySetText, sizeForStrU_eq hA h5 hn ho]
  simp only [Res.ok_bind]
  congr 1; funext b
  rw [growBufferU_eq dbg _ (sizeForStr_mod _).1 (sizeForStr_mod _).2]
  congr 1; funext b
  exact writeLoopU_eq hA h5 _ 0 0 b (by decide) (by omega)

/-! ### Reading -/

theorem sourceU_matches (hA : A.Exact w) (h5 : 5 ≤ w) (b : Buf .ump) (hb : 4 ≤ b.length)
    (hw : b.length < 2 ^ w) :
    (sourceU A b).Matches (source b) fun it => it.packet < b.length / 4 ∧ it.byte < 12 := by
  have hw' : 2 ^ 5 ≤ 2 ^ w := Nat.pow_le_pow_right (by decide) h5
  have hf : ∀ it : TextIt, (source b).finished it =
      .ok (it.packet == b.length / 4 - 1 && it.byte == 11) := fun it => if_neg (by omega)
  refine ⟨fun it hi => ?_, fun it hi he => ?_, fun it hi he => ?_⟩
  · rw [hf]
    show (A.sub (b.length / 4) 1 >>= _) = _
    rw [hA.sub (by omega)]
    rfl
  · show (A.mul it.packet 4 >>= _) = (at' b (it.packet * 4 + 1 + it.byte / 4) >>= _)
    rw [hA.mul (by omega)]
    simp only [Res.ok_bind]
    rw [hA.add (by omega)]
    simp only [Res.ok_bind]
    rw [hA.add (by omega)]
    rfl
  · have hne : ¬ (it.packet = b.length / 4 - 1 ∧ it.byte = 11) := by
      intro h
      rw [hf] at he
      simp [h.1, h.2] at he
    show (A.add it.byte 1 >>= _) = _ ∧ _
    rw [hA.add (by omega)]
    simp only [Res.ok_bind, TextSource.advance]
    by_cases h : it.byte = 11
    · rw [if_pos (by simp [h]), if_pos (by simp [h, source]), hA.add (by omega)]
      exact ⟨rfl, by show it.packet + 1 < b.length / 4; omega, by show 0 < 12; decide⟩
    · rw [if_neg (by simpa using h), if_neg (by simpa [source] using h)]
      exact ⟨rfl, hi.1, by show it.byte + 1 < 12; omega⟩

theorem hint_eq (hA : A.Exact w) (b : Buf .ump) (hb : 4 ≤ b.length) (hw : 12 * b.length < 2 ^ w) :
    (sourceU A b).hint = .ok ((b.length - 1) * 12, b.length * 12) := by
  show (A.sub b.length 1 >>= _) = _
  rw [hA.sub (by omega)]
  simp only [Res.ok_bind]
  rw [hA.mul (by omega)]
  simp only [Res.ok_bind]
  rw [hA.mul (by omega)]
  rfl

theorem textBytesU_eq (hA : A.Exact w) (h5 : 5 ≤ w) (b : Buf .ump) (hb : 4 ≤ b.length)
    (hw : b.length < 2 ^ w) {x : Nat × Nat} (hx : (sourceU A b).hint = .ok x) :
    textBytesU A b = textBytes b :=
  (sourceU_matches hA h5 b hb hw).collectVec _ _ _ ⟨by show 0 < b.length / 4; omega,
    by show 0 < 12; decide⟩ hx

theorem textBytesU_panic (hA : A.Exact w) (h5 : 5 ≤ w) (b : Buf .ump) (hb : 4 ≤ b.length)
    (hw : b.length < 2 ^ w) (hx : (sourceU A b).hint = .panic) (l : List (BitVec 8))
    (hl : textBytes b = .ok l) :
    textBytesU A b = if l = [] then .ok [] else .panic :=
  (sourceU_matches hA h5 b hb hw).collectVec_panic _ _ _ ⟨by show 0 < b.length / 4; omega,
    by show 0 < 12; decide⟩ hx l hl

theorem hint_checked_panic (b : Buf .ump) (hb : 4 ≤ b.length) (hw : 2 ^ w ≤ 12 * b.length) :
    (sourceU (.checked w) b).hint = .panic := by
  show ((Arith.checked w).sub b.length 1 >>= _) = _
  rw [(Arith.checked_exact w).sub (by omega)]
  simp only [Res.ok_bind]
  have h2 : (Arith.checked w).mul b.length 12 = .panic := if_neg (by omega)
  by_cases h : (b.length - 1) * 12 < 2 ^ w
  · rw [(Arith.checked_exact w).mul h]
    simp only [Res.ok_bind]
    rw [h2]; rfl
  · rw [show (Arith.checked w).mul (b.length - 1) 12 = .panic from if_neg h]; rfl

theorem hint_wrapping (b : Buf .ump) : ∃ x, (sourceU (.wrapping w) b).hint = .ok x := ⟨_, rfl⟩

theorem dataU_eq (hA : A.Exact w) (b : Buf .ump) (hw : b.length < 2 ^ w) :
    dataU A b = data b := by
  rw [dataU, data, sizeU, size]
  cases h : (chunksExact 4 b).findIdx? fun p =>
      U32.crumb (head0 p) 4 == 0#2 || U32.crumb (head0 p) 4 == 3#2 with
  | none => rfl
  | some i =>
    have hi : i < (chunksExact 4 b).length := (List.findIdx?_eq_some_iff_getElem.1 h).1
    rw [chunksExact_length (by decide)] at hi
    simp only
    rw [hA.mul (by omega)]
    simp only [Res.ok_bind]
    rw [hA.add (by omega)]
    rfl

end FlexText

namespace StreamText

variable {off : Nat}

theorem writeLoopU_eq (hA : A.Exact w) (h5 : 5 ≤ w) (ho : off < 2) (vs : List (BitVec 8)) :
    ∀ (p j : Nat) (b : Buf .ump), j < 14 - off → (14 - off) * p + j + vs.length < 2 ^ w →
    writeLoopU A off vs p j b = writeLoop off vs p j b := by
  have hw : 2 ^ 5 ≤ 2 ^ w := Nat.pow_le_pow_right (by decide) h5
  have h13 : ∀ p, 13 * p ≤ (14 - off) * p := fun p => Nat.mul_le_mul_right p (by omega)
  induction vs with
  | nil => intros; rfl
  | cons v vs ih =>
    intro p j b hj hl
    rw [List.length_cons] at hl
    have := h13 p
    rw [writeLoopU, writeLoop, hA.add (by omega)]
    simp only [Res.ok_bind]
    rw [hA.add (by omega)]
    simp only [Res.ok_bind]
    rw [hA.mul (by omega)]
    simp only [Res.ok_bind]
    rw [hA.add (by omega)]
    simp only [Res.ok_bind]
    congr 1; funext b
    by_cases h : (j == 13 - off) = true
    · have hj' : j = 13 - off := by simpa using h
      rw [if_pos h, if_pos h, hA.add (by omega)]
      simp only [Res.ok_bind]
      exact ih _ _ _ (by omega) (by rw [Nat.mul_add]; omega)
    · have hj' : j ≠ 13 - off := by simpa using h
      rw [if_neg h, if_neg h, hA.add (by omega)]
      simp only [Res.ok_bind]
      exact ih _ _ _ (by omega) (by omega)

theorem sizeForStrU_eq (hA : A.Exact w) (h5 : 5 ≤ w) (ho : off < 2) {n : Nat} (hn : n < 2 ^ w)
    (hv : ¬ (n % (14 - off) = 0 ∧ 2 ^ w ≤ 4 * n)) :
    sizeForStrU A off n = .ok (sizeForStr off n) := by
  have hw : 2 ^ 5 ≤ 2 ^ w := Nat.pow_le_pow_right (by decide) h5
  have hd : n / (14 - off) ≤ n / 13 := Nat.div_le_div_left (by omega) (by decide)
  simp only [sizeForStrU, sizeForStr]
  by_cases h : (n % (14 - off) == 0) = true
  · rw [if_pos h, if_pos h]
    by_cases h0 : (n == 0) = true
    · rw [if_pos h0, if_pos h0]
    · rw [if_neg h0, if_neg h0, hA.mul (by have : n % (14 - off) = 0 := by simpa using h
                                           omega)]
      rfl
  · rw [if_neg h, if_neg h, hA.add (by omega)]
    simp only [Res.ok_bind]
    rw [hA.mul (by omega)]

theorem clearPayloadU_eq (dbg : Bool) (ho : off < 2) (b : Buf .ump) :
    clearPayloadU dbg off b = clearPayload off b := by
  rw [clearPayloadU, clearPayload, decide_eq_true ho, Bool.or_true]

theorem setTextU_eq (hA : A.Exact w) (h5 : 5 ≤ w) (dbg : Bool) (t : StreamText) (ht : t.offset < 2)
    (b : Buf .ump) (s : String) (hn : (strBytes s).length < 2 ^ w)
    (ho : ¬ ((strBytes s).length % (14 - t.offset) = 0 ∧ 2 ^ w ≤ 4 * (strBytes s).length)) :
    setTextU A dbg t b s = t.setText b s := by
  rw [setTextU, setText, sizeForStrU_eq hA h5 ht hn ho]
  simp only [Res.ok_bind]
  rw [clearPayloadU_eq dbg ht]
  congr 1; funext b
  congr 1; funext b
  congr 1; funext b
  exact writeLoopU_eq hA h5 ht _ 0 0 b (by omega) (by omega)

theorem trySetTextU_eq (hA : A.Exact w) (h5 : 5 ≤ w) (dbg : Bool) (t : StreamText)
    (ht : t.offset < 2) (b : Buf .ump) (s : String) (hn : (strBytes s).length < 2 ^ w)
    (ho : ¬ ((strBytes s).length % (14 - t.offset) = 0 ∧ 2 ^ w ≤ 4 * (strBytes s).length)) :
    trySetTextU A dbg t b s = t.trySetText b s := by
  rw [trySetTextU, trySetText, sizeForStrU_eq hA h5 ht hn ho]
  simp only [Res.ok_bind]
  congr 1; funext b
  rw [clearPayloadU_eq dbg ht]
  congr 1; funext b
  congr 1; funext b
  congr 1; funext b
  exact writeLoopU_eq hA h5 ht _ 0 0 b (by omega) (by omega)

theorem sourceU_matches (hA : A.Exact w) (h5 : 5 ≤ w) (ho : off < 2) (b : Buf .ump)
    (hw : b.length < 2 ^ w) :
    (sourceU A off b).Matches (source off b) fun it =>
      it.packet ≤ b.length / 4 ∧ it.byte < 14 - off := by
  have hw' : 2 ^ 5 ≤ 2 ^ w := Nat.pow_le_pow_right (by decide) h5
  refine ⟨fun it hi => rfl, fun it hi he => ?_, fun it hi he => ?_⟩
  · have hlt : it.packet < b.length / 4 := by
      have := Res.ok.inj he
      have := of_decide_eq_false this
      omega
    show (A.add it.byte 2 >>= _) =
      (at' b (it.packet * 4 + (it.byte + 2 + off) / 4) >>= _)
    rw [hA.add (by omega)]
    simp only [Res.ok_bind]
    rw [hA.add (by omega)]
    simp only [Res.ok_bind]
    rw [hA.mul (by omega)]
    simp only [Res.ok_bind]
    rw [hA.add (by omega)]
    rfl
  · have hlt : it.packet < b.length / 4 := by
      have := Res.ok.inj he
      have := of_decide_eq_false this
      omega
    show (A.add it.byte 1 >>= _) = _ ∧ _
    rw [hA.add (by omega)]
    simp only [Res.ok_bind, TextSource.advance]
    by_cases h : it.byte + 1 = 14 - off
    · rw [if_pos (by simpa using h), if_pos (by simpa [source] using h), hA.add (by omega)]
      exact ⟨rfl, by show it.packet + 1 ≤ b.length / 4; omega, by show 0 < 14 - off; omega⟩
    · rw [if_neg (by simpa using h), if_neg (by simpa [source] using h)]
      exact ⟨rfl, hi.1, by show it.byte + 1 < 14 - off; omega⟩

theorem hint_eq (hA : A.Exact w) (b : Buf .ump) (hb : 4 ≤ b.length) (hw : 14 * b.length < 2 ^ w) :
    (sourceU A off b).hint = .ok ((b.length - 1) * 14, b.length * 14) := by
  show (A.sub b.length 1 >>= _) = _
  rw [hA.sub (by omega)]
  simp only [Res.ok_bind]
  rw [hA.mul (by omega)]
  simp only [Res.ok_bind]
  rw [hA.mul (by omega)]
  rfl

theorem textBytesU_eq (hA : A.Exact w) (h5 : 5 ≤ w) (t : StreamText) (ht : t.offset < 2)
    (b : Buf .ump) (hw : b.length < 2 ^ w) {x : Nat × Nat}
    (hx : (sourceU A t.offset b).hint = .ok x) : textBytesU A t b = t.textBytes b :=
  (sourceU_matches hA h5 ht b hw).collectVec _ _ _ ⟨Nat.zero_le _,
    by show 0 < 14 - t.offset; omega⟩ hx

theorem textBytesU_panic (hA : A.Exact w) (h5 : 5 ≤ w) (t : StreamText) (ht : t.offset < 2)
    (b : Buf .ump) (hw : b.length < 2 ^ w) (hx : (sourceU A t.offset b).hint = .panic)
    (l : List (BitVec 8)) (hl : t.textBytes b = .ok l) :
    textBytesU A t b = if l = [] then .ok [] else .panic :=
  (sourceU_matches hA h5 ht b hw).collectVec_panic _ _ _ ⟨Nat.zero_le _,
    by show 0 < 14 - t.offset; omega⟩ hx l hl

theorem hint_checked_panic (b : Buf .ump) (hb : 4 ≤ b.length) (hw : 2 ^ w ≤ 14 * b.length) :
    (sourceU (.checked w) off b).hint = .panic := by
  show ((Arith.checked w).sub b.length 1 >>= _) = _
  rw [(Arith.checked_exact w).sub (by omega)]
  simp only [Res.ok_bind]
  have h2 : (Arith.checked w).mul b.length 14 = .panic := if_neg (by omega)
  by_cases h : (b.length - 1) * 14 < 2 ^ w
  · rw [(Arith.checked_exact w).mul h]
    simp only [Res.ok_bind]
    rw [h2]; rfl
  · rw [show (Arith.checked w).mul (b.length - 1) 14 = .panic from if_neg h]; rfl

theorem hint_wrapping (b : Buf .ump) : ∃ x, (sourceU (.wrapping w) off b).hint = .ok x := ⟨_, rfl⟩

theorem dataU_eq (hA : A.Exact w) (b : Buf .ump) (hw : b.length < 2 ^ w) :
    dataU A b = data b := by
  rw [dataU, data, sizeU, size]
  cases h : (chunksExact 4 b).findIdx? fun p =>
      U32.crumb (head0 p) 2 == 0#2 || U32.crumb (head0 p) 2 == 3#2 with
  | none => rfl
  | some i =>
    have hi : i < (chunksExact 4 b).length := (List.findIdx?_eq_some_iff_getElem.1 h).1
    rw [chunksExact_length (by decide)] at hi
    simp only
    rw [hA.mul (by omega)]
    simp only [Res.ok_bind]
    rw [hA.add (by omega)]
    rfl

end StreamText

end Midi2
