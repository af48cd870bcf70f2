import Verif.Lemmas.Lazy
import Verif.Lemmas.SysexHold

/-! The caller's iterator and system exclusive messages over UMP words. -/

namespace Midi2

namespace Sx

theorem Steady.from {k : Sx} {N : Option Nat} {b : Buf .ump} (h : Steady k N b) (q : Nat) :
    SteadyFrom k N q b := by
  cases N with
  | none => exact fun i o1 _ => isCompact_iff.mp h i o1 (Nat.zero_le _)
  | some n => exact fun i o0 o1 _ => h i o0 o1

/-- A buffer the splice works on is a message that can be spliced. -/
theorem Loose.ready {k : Sx} {dbg : Bool} {I : Buf .ump → Prop} {g : BitVec 4} {N : Option Nat}
    {b : Buf .ump} {l : List k.Byte} (h : Loose k dbg I g N b l) :
    k.Ready dbg N.isSome b g l := by
  obtain ⟨⟨p, P⟩, W⟩ := h
  refine ⟨P.group_ok, P.payloadList_ok, _, valid_iff.mp P.valid, ⟨.inl fun j hj => ?_, fun e => ?_⟩⟩
  · rw [List.length_map, List.length_range] at hj
    rw [List.getElem?_map, List.getElem?_range (by omega), Option.map_some, capacity_eq]
    unfold fillSize
    rw [if_neg (by omega)]
  · have M := valid_iff.mp P.valid
    obtain ⟨g', hg, V⟩ := isMessage_valid M
    have hv : V.payload = l := by
      have := P.payloadList_ok
      rw [V.frame.payloadList_eq] at this
      injection this
    rw [← payload_length V, hv]
    exact behind_iff.mp ((W.steady e).from _)

/-- Compaction before a splice. -/
theorem Ready.start {k : Sx} {dbg : Bool} {g : BitVec 4} {N : Option Nat}
    {b : Buf .ump} {l : List k.Byte} (h : k.Ready dbg N.isSome b g l)
    (hN : ∀ n, N = some n → b.length = n) :
    ∃ b0, k.compact b = .ok b0 ∧ Loose k dbg (fun _ => True) g N b0 l := by
  obtain ⟨sizes, M, hs⟩ := h.message
  exact Spliceable.start (inv_true k) M hs trivial hN h.payload

theorem Ready.stride_le {k : Sx} {dbg fixed : Bool} {g : BitVec 4} {b : Buf .ump}
    {l : List k.Byte} (h : k.Ready dbg fixed b g l) : k.stride ≤ b.length := by
  obtain ⟨sizes, M, -⟩ := h.message
  have h := M.whole
  rw [words_eq] at h
  have : 0 < sizes.length := by
    cases sizes with
    | nil => exact absurd rfl M.nonempty
    | cons => simp
  have := Nat.mul_le_mul_left k.stride this
  omega

theorem Ready.size {k : Sx} {dbg fixed : Bool} {g : BitVec 4} {b : Buf .ump}
    {l : List k.Byte} (h : k.Ready dbg fixed b g l) : k.payloadSize b = .ok l.length := by
  obtain ⟨sizes, M, -⟩ := h.message
  obtain ⟨g', hg, V⟩ := isMessage_valid M
  have hl := h.payload
  rw [V.frame.payloadSize_eq]
  rw [V.frame.payloadList_eq] at hl
  injection hl with hl
  rw [hl]

section
variable {k : Sx} {dbg : Bool} {g : BitVec 4} {b b0 : Buf .ump} {l : List k.Byte}

/-- The iterator panics while a growable message is spliced. -/
theorem feed_crash_vec (hc : k.compact b = .ok b0) (H : Loose k dbg (fun _ => True) g none b0 l)
    {f : Feed k.Byte} {items : List k.Byte} (hf : f.Crashes items) {h : Nat × Option Nat}
    (hh : f.hint = some h) (rb re : Bound)
    (h1 : rb.first ≤ re.last l.length) (h2 : re.last l.length ≤ l.length)
    {turns : Nat} (ht : items.length < turns) :
    ∃ b' gap rest,
      (k.ops dbg .vec).feedDetail turns b f rb re = .crashed b' (items.length + 1) ∧
      k.Ready dbg false b' g
        (l.take rb.first ++ items ++ gap ++ (l.drop (re.last l.length) ++ rest)) := by
  have hcut := cut l rb.first (re.last l.length) h1
  have hlen : ((l.take (re.last l.length)).drop rb.first).length = re.last l.length - rb.first := by
    simp only [List.length_drop, List.length_take]; omega
  have L : SxLawsAll (k.ops dbg .vec) _ _ _ := laws k dbg g none (inv_true k)
  obtain ⟨b', gap, rest, e, R⟩ := (L.toLaws.feed_crash (s := b) (s0 := b0) hf.1 hh ht rb re
    (l.take rb.first) ((l.take (re.last l.length)).drop rb.first) (l.drop (re.last l.length)) hc
    (by rw [← hcut]; exact H) (by rw [spliceBegin_eq, List.length_take]; omega)
    (by rw [← hcut, spliceEnd_eq, List.length_take, hlen]; omega) (.inl rfl)).1
    (fun c hc => by cases hc) hf.2
  exact ⟨b', gap, rest, e, R.ready⟩

/-- The iterator panics, or gives too much, while a message of fixed size is spliced. -/
theorem feed_crash_fixed {N : Nat} (hN : k.stride ≤ N) (hc : k.compact b = .ok b0)
    (H : Loose k dbg (fun _ => True) g (some N) b0 l)
    {f : Feed k.Byte} {items : List k.Byte} (hy : f.Yields items) {h : Nat × Option Nat}
    (hh : f.hint = some h) (rb re : Bound)
    (h1 : rb.first ≤ re.last l.length) (h2 : re.last l.length ≤ l.length)
    {turns : Nat} (ht : items.length < turns) :
    (k.stride * k.count (spliced l rb.first (re.last l.length) items).length ≤ N →
      f.poll items.length = .panic →
      ∃ b' l', (k.ops dbg .fixed).feedDetail turns b f rb re = .crashed b' (items.length + 1) ∧
        b'.length = N ∧ k.Ready dbg true b' g l' ∧ l'.take rb.first = l.take rb.first ∧
        (spliced l rb.first (re.last l.length) items).length ≤ l'.length ∧
        ((rb.first = re.last l.length ∨ items.length ≤ hintEstimate h ∨
          k.stride * k.count (l.length - (re.last l.length - rb.first) + 2 * items.length) ≤ N) →
          ∃ gap rest, l' =
            l.take rb.first ++ items ++ gap ++ (l.drop (re.last l.length) ++ rest))) ∧
    (N < k.stride * k.count (spliced l rb.first (re.last l.length) items).length →
      ∃ b' l' calls, calls ≤ items.length ∧
        (k.ops dbg .fixed).feedDetail turns b f rb re = .ok (b', some .bufferOverflow, calls) ∧
        Loose k dbg (fun _ => True) g (some N) b' l') := by
  have hcut := cut l rb.first (re.last l.length) h1
  have hlen : ((l.take (re.last l.length)).drop rb.first).length = re.last l.length - rb.first := by
    simp only [List.length_drop, List.length_take]; omega
  have L : SxLawsAll (k.ops dbg .fixed) _ _ _ := laws k dbg g (some N) (inv_true k)
  have hsl : (spliced l rb.first (re.last l.length) items).length =
      rb.first + items.length + (l.length - re.last l.length) := by
    unfold spliced
    simp only [List.length_append, List.length_take, List.length_drop]; omega
  have hfit : Fits (k.limit (some N)) (rb.first + items.length + (l.length - re.last l.length)) ↔
      k.stride * k.count (spliced l rb.first (re.last l.length) items).length ≤ N := by
    rw [← k.limit_iff hN, hsl]
    constructor
    · intro hf; exact hf _ rfl
    · intro hf c hc; cases hc; exact hf
  have any := L.feed_crash_any (s := b) (s0 := b0) hy hh ht rb re l rb.first
    (re.last l.length - rb.first) (l.length - re.last l.length) hc H (by omega)
    (spliceBegin_eq rb) (by rw [spliceEnd_eq]; omega)
  refine ⟨fun hf hp => ?_, fun hf => ?_⟩
  · obtain ⟨b', l', e, R, t1, t2⟩ := any.1 (hfit.mpr hf) hp
    refine ⟨b', l', e, R.2.fixed N rfl, R.ready, t1, by rw [hsl]; exact t2, fun hx => ?_⟩
    obtain ⟨b'', gap, rest, e', R'⟩ := (L.toLaws.feed_crash (s := b) (s0 := b0) hy hh ht rb re
      (l.take rb.first) ((l.take (re.last l.length)).drop rb.first) (l.drop (re.last l.length)) hc
      (by rw [← hcut]; exact H) (by rw [spliceBegin_eq, List.length_take]; omega)
      (by rw [← hcut, spliceEnd_eq, List.length_take, hlen]; omega) (by
        rcases hx with hh | hh | hh
        · right; left
          apply List.eq_nil_of_length_eq_zero
          omega
        · exact Or.inr (Or.inr (Or.inl hh))
        · refine Or.inr (Or.inr (Or.inr ⟨Or.inr L.resize, ?_⟩))
          intro c hc
          cases hc
          refine (k.limit_iff hN).mpr ?_
          rw [List.length_take, List.length_drop, show min rb.first l.length + 2 * items.length +
            (l.length - re.last l.length) =
              l.length - (re.last l.length - rb.first) + 2 * items.length by omega]
          exact hh)).1 (by
        have := hfit.mpr hf
        rwa [← hsl] at this) hp
    rw [e] at e'
    cases e'
    refine ⟨gap, rest, ?_⟩
    have p1 := R.ready.payload
    have p2 := R'.ready.payload
    rw [p1] at p2
    injection p2
  · obtain ⟨b', l', calls, hle, e, R⟩ := any.2 (fun c => by have := hfit.mp c; omega)
    exact ⟨b', l', calls, hle, e, R⟩

end

end Sx

end Midi2
