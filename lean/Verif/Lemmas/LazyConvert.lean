import Verif.Model.LazyConvert
import Verif.Spec.Lazy
import Verif.Lemmas.SysexBytes

/-!
# Payload iterators as feeds
-/

namespace Midi2

/-- A payload iterator over bytes gives the bytes below `0x80`, up to the first which is not. -/
theorem Sxb.feed_yields (p : List (BitVec 8)) (l : List (BitVec 7)) (r : List (BitVec 8)) (k : Nat)
    (h : p.drop k = l.map Sxb.e ++ r) :
    (∀ i (hi : i < l.length), pollNext Sxb.next ⟨p, k⟩ i = .item l[i]) ∧
    (r = [] → pollNext Sxb.next ⟨p, k⟩ l.length = .none) ∧
    (∀ x r', r = x :: r' → 128 ≤ x.toNat → pollNext Sxb.next ⟨p, k⟩ l.length = .panic) := by
  induction l generalizing k with
  | nil =>
    rw [List.map_nil, List.nil_append] at h
    refine ⟨fun i hi => absurd hi (Nat.not_lt_zero _), fun hr => ?_, fun x r' hr hx => ?_⟩
    · have : p[k]? = none := by
        rw [List.getElem?_eq_none]
        rw [hr] at h
        exact List.drop_eq_nil_iff.mp h
      simp [pollNext, Sxb.next, this]
    · have : p[k]? = some x := by
        have e := congrArg (·[0]?) h
        simp only [List.getElem?_drop, hr] at e
        simpa using e
      have hu : Sxb.u7New x = .panic := if_neg (by omega)
      simp only [List.length_nil, pollNext, Sxb.next, this, hu]
      rfl
  | cons v l ih =>
    have hk : p[k]? = some (Sxb.e v) := by
      have e := congrArg (·[0]?) h
      simp only [List.getElem?_drop] at e
      simpa using e
    have hn : Sxb.next ⟨p, k⟩ = .ok (some v, ⟨p, k + 1⟩) := by
      unfold Sxb.next
      simp only [hk, Sxb.u7New_e]
      rfl
    have hd : p.drop (k + 1) = l.map Sxb.e ++ r := by
      have e := congrArg (List.drop 1) h
      simpa [List.drop_drop] using e
    obtain ⟨h1, h2, h3⟩ := ih (k + 1) hd
    refine ⟨fun i hi => ?_, fun hr => ?_, fun x r' hr hx => ?_⟩
    · cases i with
      | zero => simp [pollNext, hn]
      | succ i => simp only [pollNext, hn]; exact h1 i (by simpa using hi)
    · simp only [List.length_cons, pollNext, hn]; exact h2 hr
    · simp only [List.length_cons, pollNext, hn]; exact h3 x r' hr hx

/-- An iterator over packets which can be collected gives what is collected, then `None`. -/
theorem Sx.feed_ends (k : Sx) (b : Buf .ump) (fuel : Nat) (it : Sx.It) (l : List k.Byte)
    (h : k.collect b fuel it = .ok l) :
    (∀ i (hi : i < l.length), pollNext (k.next b) it i = .item l[i]) ∧
      pollNext (k.next b) it l.length = .none := by
  induction fuel generalizing it l with
  | zero => cases h
  | succ fuel ih =>
    unfold Sx.collect at h
    cases hn : k.next b it with
    | err e => rw [hn] at h; cases h
    | panic => rw [hn] at h; cases h
    | ok x =>
      obtain ⟨_ | v, it'⟩ := x
      · rw [hn] at h
        cases h
        exact ⟨fun i hi => absurd hi (Nat.not_lt_zero _), by simp [pollNext, hn]⟩
      · rw [hn] at h
        simp only [Res.ok_bind] at h
        cases hc : k.collect b fuel it' with
        | err e => rw [hc] at h; cases h
        | panic => rw [hc] at h; cases h
        | ok l' =>
          rw [hc] at h
          cases h
          obtain ⟨h1, h2⟩ := ih it' l' hc
          refine ⟨fun i hi => ?_, ?_⟩
          · cases i with
            | zero => simp [pollNext, hn]
            | succ i => simp only [pollNext, hn]; exact h1 i (by simpa using hi)
          · simp only [List.length_cons, pollNext, hn]; exact h2

end Midi2
