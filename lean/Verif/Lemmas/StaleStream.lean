import Verif.Lemmas.Stale
import Verif.Lemmas.SysexHold
import Verif.Lemmas.SysexStream

/-!
# The stream ids of a `Sysex8` while the payload is replaced in a resizable buffer
-/

namespace Midi2

namespace Sx

/-- The first `p` packets of `b'` have the stream ids that were at their places in `b`; packets
behind the end of `b` have 0. -/
def KeptIds (p : Nat) (b b' : Buf .ump) : Prop :=
  ∀ j, j < p → octetAt b' (4 * (4 * j) + 2) = octetAt b (4 * (4 * j) + 2) ∨
    (octetAt b (4 * (4 * j) + 2) = none ∧ octetAt b' (4 * (4 * j) + 2) = some 0)

section
variable {g : BitVec 4} {b b' : Buf .ump} {l : List (s8 : Sx).Byte} {dbg : Bool}

theorem count_mono (k : Sx) {m n : Nat} (h : m ≤ n) : k.count m ≤ k.count n := by
  rw [k.count_le_iff _ _ (k.count_pos n)]
  exact Nat.le_trans h ((k.count_le_iff n _ (k.count_pos n)).mp (Nat.le_refl _))

theorem tryResize_keptIds {m n : Nat} (hb : 4 ≤ b.length) (hm : m ≤ n)
    (h : s8.tryResize .vec b n = .ok (b', none)) : KeptIds (s8.count m) b b' := by
  have hs1 := length_vecResize b (s8.stride * s8.count n)
  have hlen : 4 ≤ s8.stride * s8.count n := Nat.le_mul_of_pos_right 4 (s8.count_pos n)
  obtain ⟨w, hw⟩ : ∃ w, b[0]? = some w := ⟨b[0], List.getElem?_eq_getElem (by omega)⟩
  have hw1 : (vecResize b (s8.stride * s8.count n))[0]? = some w := by
    unfold vecResize
    rw [List.getElem?_append_left (by simp; omega), List.getElem?_take_of_lt (by omega), hw]
  obtain ⟨b2, e1, r⟩ := s8.tryResize_fine (m := .vec) (b := b) (n := n) rfl
    (Nat.le_of_eq hs1.symm) ⟨w, hw1, rfl⟩
  rw [h] at e1
  cases e1
  intro j hj
  have hc := s8.count_mono hm
  have hst : s8.stride * s8.count n = 4 * s8.count n := rfl
  rw [streamId_resized r]
  by_cases h : 4 * j < b.length
  · left
    exact octetAt_vecResize_lt _ _ _ (by omega) (by omega)
  · right
    refine ⟨octetAt_none (by omega), ?_⟩
    rw [octetAt_head _ (4 * j) 2 (by omega)]
    unfold vecResize
    rw [List.getElem?_append_right (by simp; omega), List.getElem?_replicate,
      if_pos (by simp; omega)]
    rfl

theorem SameHeads.keptIds (h : SameHeads s8 b b') (p : Nat) : KeptIds p b b' :=
  fun j _ => Or.inl (streamId_same h j)

theorem keepsIds (dbg : Bool) {I : Buf .ump → Prop} (g : BitVec 4) (m : Nat) :
    SxKeeps (s8.ops dbg .vec) (Loose s8 dbg I g none) (KeptIds (s8.count m)) m False True where
  refl _ _ _ := Or.inl rfl
  trans h1 h2 j hj := by
    rcases h1 j hj with a | ⟨a, c⟩ <;> rcases h2 j hj with a' | ⟨a', c'⟩
    · exact Or.inl (a'.trans a)
    · exact Or.inr ⟨by rw [← a]; exact a', c'⟩
    · exact Or.inr ⟨a, a'.trans c⟩
    · rw [c] at a'; cases a'
  write := by
    rintro b b' l v i ⟨⟨p, P⟩, _⟩ hi _ e
    obtain ⟨b2, e1, h, _⟩ := P.write v hi
    change s8.writeDatum b v i = _ at e
    rw [e1] at e
    cases e
    exact h.keptIds _
  same := by
    rintro b b' l i ⟨⟨p, P⟩, W⟩ e
    have := P.move_same (fun e => (W.steady e).isCompact) i
    change s8.moveTail dbg b i i = _ at e
    rw [this] at e
    cases e
    exact fun _ _ => Or.inl rfl
  up := by
    rintro b b' l tail to ⟨⟨p, P⟩, W⟩ h1 h2 _ e
    obtain ⟨b2, e1, h, _⟩ := P.move_up (fun e => (W.steady e).isCompact) h1 h2
    change s8.moveTail dbg b tail to = _ at e
    rw [e1] at e
    cases e
    exact h.keptIds _
  down := by
    rintro b b' l tail to ⟨⟨p, P⟩, W⟩ h1 h2 _ e
    obtain ⟨b2, e1, h, _⟩ := P.move_down (fun e => (W.steady e).isCompact) h1 h2
    change s8.moveTail dbg b tail to = _ at e
    rw [e1] at e
    cases e
    exact h.keptIds _
  resize := by
    rintro b b' l n ⟨⟨p, P⟩, _⟩ hn e
    refine tryResize_keptIds ?_ (by simpa using hn) e
    have := P.frame.le_mul P.pos
    have : s8.stride = 4 := rfl
    omega

theorem splice_keptIds {I : Buf .ump → Prop} (hI : Inv s8 I false) {b0 : Buf .ump}
    (hc : s8.compact b = .ok b0) (h : Loose s8 dbg I g none b0 l) (d : Src (s8 : Sx).Byte) (rb re : Bound)
    (h1 : rb.first ≤ re.last l.length) (h2 : re.last l.length ≤ l.length)
    (hx : d.items.length ≤ d.upper.getD d.lower)
    (e : (s8.ops dbg .vec).splice b d rb re = .ok b') :
    KeptIds (s8.count (spliced l rb.first (re.last l.length) d.items).length) b0 b' := by
  have hcut := cut l rb.first (re.last l.length) h1
  have hlen : ((l.take (re.last l.length)).drop rb.first).length = re.last l.length - rb.first := by
    simp only [List.length_drop, List.length_take]; omega
  have L : SxLaws (s8.ops dbg .vec) _ _ _ none := (laws s8 dbg g none hI).toLaws
  have he : d.estimate = d.upper.getD d.lower := by
    unfold Src.estimate; cases d.upper <;> rfl
  unfold SxOps.splice at e
  cases hd : (s8.ops dbg .vec).trySpliceDetail b d rb re with
  | ok r =>
    rw [hd] at e
    obtain ⟨s, r⟩ := r
    cases r with
    | some => cases e
    | none =>
      cases e
      refine (keepsIds dbg (I := I) g _).detail L (s := b) (s0 := b0) d rb re (l.take rb.first)
        ((l.take (re.last l.length)).drop rb.first) (l.drop (re.last l.length)) hc
        (by rw [← hcut]; exact h) ?_ ?_ rfl ?_ hd
      · rw [spliceBegin_eq, List.length_take]; omega
      · rw [← hcut, spliceEnd_eq, List.length_take, hlen]; omega
      · right; right; exact ⟨by omega, trivial⟩
  | err => rw [hd] at e; cases e
  | panic => rw [hd] at e; cases e

/-- Packing the payload changes no stream id. -/
theorem compact_ids {sizes : List Nat} {fixed : Bool} (M : (s8 : Sx).layout.IsMessage b g.toNat sizes)
    (hs : (s8 : Sx).layout.Spliceable dbg fixed b sizes) {b0 : Buf .ump} (hc : s8.compact b = .ok b0)
    (j : Nat) : octetAt b0 (4 * (4 * j) + 2) = octetAt b (4 * (4 * j) + 2) := by
  obtain ⟨g', hg, V⟩ := isMessage_valid M
  obtain ⟨b1, p1, e1, _, _, e2⟩ := V.compacted (compactable hs.compactable)
  rw [hc] at e1
  cases e1
  exact e2 _ _ (inv_streamIds b) (fun _ => rfl) j

end

end Sx

end Midi2
