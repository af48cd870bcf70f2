import Verif.Lemmas.BitOps
import Verif.Spec.Footprint

/-! Generic facts about reading and writing single units of a buffer. -/

namespace Midi2

section
variable {n : Nat} {T : Type}

theorem at'_ok {α : Type} {b : List α} {i : Nat} (h : i < b.length) : at' b i = .ok b[i] := by
  simp [at', List.getElem?_eq_getElem h]

theorem at'_panic {α : Type} {b : List α} {i : Nat} (h : b.length ≤ i) : at' b i = .panic := by
  simp [at', List.getElem?_eq_none h]

theorem modifyAt_ok {α : Type} {b : List α} {i : Nat} (f : α → α) (h : i < b.length) :
    modifyAt b i f = .ok (b.set i (f b[i])) := by
  simp [modifyAt, List.getElem?_eq_getElem h]

theorem SameOff.refl (m : Nat → BitVec n) (b : List (BitVec n)) : SameOff m b b :=
  ⟨rfl, fun _ _ _ => rfl⟩

theorem SameOff.trans {m : Nat → BitVec n} {a b c : List (BitVec n)}
    (h : SameOff m a b) (h' : SameOff m b c) : SameOff m a c :=
  ⟨h.1.trans h'.1, fun i hi hi' =>
    (h.2 i hi (h.1 ▸ hi)).trans (h'.2 i (h.1 ▸ hi) hi')⟩

theorem SameOff.set {m : Nat → BitVec n} (b : List (BitVec n)) (i : Nat) (w : BitVec n)
    (h : ∀ hi : i < b.length, b[i] &&& ~~~(m i) = w &&& ~~~(m i)) :
    SameOff m b (b.set i w) := by
  refine ⟨by simp, fun k hk hk' => ?_⟩
  rw [List.getElem_set]
  split
  · next e => subst e; exact h hk
  · rfl

theorem SameOn.symm {m : Nat → BitVec n} {a b : List (BitVec n)} (h : SameOn m a b) :
    SameOn m b a :=
  ⟨h.1.symm, fun i hi hi' => (h.2 i hi' hi).symm⟩

theorem SameOff.on {m m' : Nat → BitVec n} {a b : List (BitVec n)} (h : SameOff m a b)
    (hd : ∀ i, m i &&& m' i = 0) : SameOn m' a b := by
  refine ⟨h.1, fun i hi hi' => ?_⟩
  have e := h.2 i hi hi'
  have key : ∀ x : BitVec n, x &&& m' i = x &&& ~~~(m i) &&& m' i := by
    intro x
    apply BitVec.eq_of_getLsbD_eq
    intro k hk
    have := congrArg (fun y : BitVec n => y.getLsbD k) (hd i)
    simp only [BitVec.getLsbD_and] at this
    simp only [BitVec.getLsbD_and, BitVec.getLsbD_not, hk, decide_true, Bool.true_and]
    revert this
    cases (m i).getLsbD k <;> cases (m' i).getLsbD k <;> simp
  rw [key a[i], key b[i], e]

/-- `k` bits from position `s` are inside the mask. -/
def covers (k s : Nat) (m : BitVec n) : Bool :=
  ((BitVec.allOnes k).setWidth n <<< s) &&& m == (BitVec.allOnes k).setWidth n <<< s

theorem covers_bit {k s : Nat} {m : BitVec n} (h : covers k s m = true) {j : Nat} (hj : j < n)
    (h1 : s ≤ j) (h2 : j < s + k) : m.getLsbD j = true := by
  have h := eq_of_beq h
  have := congrArg (fun y : BitVec n => y.getLsbD j) h
  simp only [BitVec.getLsbD_and, BitVec.getLsbD_shiftLeft, BitVec.getLsbD_setWidth,
    BitVec.getLsbD_allOnes] at this
  have h3 : ¬ j < s := by omega
  have h4 : j - s < n := by omega
  have h5 : j - s < k := by omega
  simpa [hj, h3, h4, h5] using this

theorem ext_congr {k s : Nat} {m w w' : BitVec n} (h : w &&& m = w' &&& m)
    (hc : covers k s m = true) : w.extractLsb' s k = w'.extractLsb' s k := by
  apply BitVec.eq_of_getLsbD_eq
  intro j hj
  rw [getLsbD_ext, getLsbD_ext]
  by_cases hn : s + j < n
  · have hm := covers_bit hc hn (by omega) (by omega)
    have := congrArg (fun y : BitVec n => y.getLsbD (s + j)) h
    simp only [BitVec.getLsbD_and, hm, Bool.and_true] at this
    simp [hj, this]
  · rw [BitVec.getLsbD_of_ge w _ (by omega), BitVec.getLsbD_of_ge w' _ (by omega)]

theorem bit_congr {s : Nat} {m w w' : BitVec n} (h : w &&& m = w' &&& m)
    (hc : covers 1 s m = true) : w.getLsbD s = w'.getLsbD s := by
  have := congrArg (fun v : BitVec 1 => v.getLsbD 0) (ext_congr h hc)
  simpa [getLsbD_ext] using this

theorem ins_off {k s : Nat} {m : BitVec n} (w : BitVec n) (v : BitVec k)
    (hc : covers k s m = true) : w &&& ~~~m = ins w s v &&& ~~~m := by
  apply BitVec.eq_of_getLsbD_eq
  intro j hj
  simp only [BitVec.getLsbD_and, BitVec.getLsbD_not, getLsbD_ins, hj, decide_true, Bool.true_and]
  by_cases h : s ≤ j ∧ j < s + k
  · simp [covers_bit hc hj h.1 h.2]
  · simp [h]

/-- The buffers agree on the masks, wherever the mask is not empty. -/
def Agree (m : Nat → BitVec n) (b b' : List (BitVec n)) : Prop :=
  ∀ i, m i ≠ 0 → (b[i]?).map (· &&& m i) = (b'[i]?).map (· &&& m i)

theorem SameOn.agree {m : Nat → BitVec n} {b b' : List (BitVec n)} (h : SameOn m b b') :
    Agree m b b' := by
  intro i _
  by_cases hi : i < b.length
  · have hi' : i < b'.length := h.1 ▸ hi
    simp [List.getElem?_eq_getElem hi, List.getElem?_eq_getElem hi', h.2 i hi hi']
  · have hi' : ¬ i < b'.length := h.1 ▸ hi
    simp [List.getElem?_eq_none (Nat.le_of_not_lt hi), List.getElem?_eq_none (Nat.le_of_not_lt hi')]

theorem Agree.symm {m : Nat → BitVec n} {b b' : List (BitVec n)} (h : Agree m b b') :
    Agree m b' b := fun i hi => (h i hi).symm

theorem Agree.take {m : Nat → BitVec n} {k : Nat} (hk : ∀ i, m i ≠ 0 → i < k)
    (b : List (BitVec n)) : Agree m (b.take k) b := by
  intro i hi
  rw [List.getElem?_take_of_lt (hk i hi)]

theorem Agree.append {m : Nat → BitVec n} {b : List (BitVec n)}
    (hk : ∀ i, m i ≠ 0 → i < b.length) (s : List (BitVec n)) : Agree m (b ++ s) b := by
  intro i hi
  rw [List.getElem?_append_left (hk i hi)]

theorem at'_congr {m : Nat → BitVec n} {b b' : List (BitVec n)} (h : Agree m b b') (i : Nat)
    (hm : m i ≠ 0)
    (g : BitVec n → Res T) (hg : ∀ w w', w &&& m i = w' &&& m i → g w = g w') :
    (at' b i >>= g) = (at' b' i >>= g) := by
  have := h i hm
  unfold at'
  cases e : b[i]? with
  | none =>
    cases e' : b'[i]? with
    | none => rfl
    | some w' => simp [e, e'] at this
  | some w =>
    cases e' : b'[i]? with
    | none => simp [e, e'] at this
    | some w' =>
      simp only [e, e', Option.map_some, Option.some.injEq] at this
      exact hg _ _ this

theorem bit_ins_same (w : BitVec n) (s : Nat) (v : Bool) (h : s < n) :
    (ins w s (BitVec.ofBool v)).getLsbD s = v := by
  rw [getLsbD_ins]
  cases v <;> simp [h]

end

end Midi2
