import Verif.Lemmas.SysexBytes
import Verif.Lemmas.Lazy

/-!
# `Sysex7` over bytes: payloads of any bytes

The splice treats the bytes of the payload, and what lies behind the message, alike whether they
have the top bit set or not.  Only the end byte is special.
-/

namespace Midi2

/-- An implementation fed with other data, through a function. -/
def SxOps.contra {S β γ : Type} (ops : SxOps S γ) (f : β → γ) : SxOps S β :=
  { compact := ops.compact, payloadSize := ops.payloadSize, moveTail := ops.moveTail,
    writeDatum := fun s v i => ops.writeDatum s (f v) i, resize := ops.resize }

/-- An iterator through a function. -/
def Src.map {β γ : Type} (f : β → γ) (d : Src β) : Src γ := ⟨d.items.map f, d.lower, d.upper⟩

namespace SxOps

variable {S β γ : Type} (ops : SxOps S γ) (f : β → γ)

theorem fill_contra (begin est : Nat) : ∀ (data : List β) (s : S) (w : Nat),
    (ops.fill begin est (data.map f) s w : Res (S × List γ × Nat × Bool)) =
      ((ops.contra f).fill begin est data s w >>= fun x => .ok (x.1, x.2.1.map f, x.2.2)) := by
  intro data
  induction data with
  | nil => intro s w; rfl
  | cons v rest ih =>
    intro s w
    simp only [List.map_cons, SxOps.fill]
    split
    · show (ops.writeDatum s (f v) (begin + w) >>= _) = _
      rw [bind_assoc]
      congr 1; funext s'
      exact ih s' (w + 1)
    · rfl

theorem mainLoop_contra (begin initial sp : Nat) : ∀ (fuel : Nat) (s : S) (data : List β)
    (w est add tail : Nat),
    ops.mainLoop begin initial sp fuel s (data.map f) w est add tail =
      (ops.contra f).mainLoop begin initial sp fuel s data w est add tail := by
  intro fuel
  induction fuel with
  | zero => intros; rfl
  | succ fuel ih =>
    intro s data w est add tail
    unfold SxOps.mainLoop
    rw [fill_contra, bind_assoc]
    congr 1; funext x
    obtain ⟨s, data, w, ex⟩ := x
    simp only [Res.ok_bind, List.isEmpty_map]
    split
    · rfl
    · congr 1; funext _
      split
      · rfl
      · show (ops.growMore s begin tail initial sp (est + add) >>= _) =
          (ops.growMore s begin tail initial sp (est + add) >>= _)
        congr 1; funext y
        obtain ⟨s, est, to⟩ := y
        show (ops.moveTail s tail to >>= _) = (ops.moveTail s tail to >>= _)
        congr 1; funext s
        dsimp only
        split
        · rfl
        · exact ih _ _ _ _ _ _

theorem trySpliceDetail_contra (s : S) (d : Src β) (rb re : Bound) :
    (ops.contra f).trySpliceDetail s d rb re = ops.trySpliceDetail s (d.map f) rb re := by
  unfold SxOps.trySpliceDetail
  have e0 : (d.map f).estimate = d.estimate := rfl
  have e1 : (d.map f).items.length = d.items.length := List.length_map ..
  rw [e0, e1]
  have e2 : (d.map f).items = d.items.map f := rfl
  rw [e2]
  simp only [mainLoop_contra]
  rfl

theorem trySplice_contra (s : S) (d : Src β) (rb re : Bound) :
    (ops.contra f).trySplice s d rb re = ops.trySplice s (d.map f) rb re := by
  unfold SxOps.trySplice
  rw [trySpliceDetail_contra]
  rfl

theorem splice_contra (s : S) (d : Src β) (rb re : Bound) :
    (ops.contra f).splice s d rb re = ops.splice s (d.map f) rb re := by
  unfold SxOps.splice
  rw [trySpliceDetail_contra]

end SxOps

namespace Sxb

/-- A byte other than the end byte. -/
abbrev Oct := { v : BitVec 8 // v ≠ endByte }

/-- A seven-bit byte as such a byte. -/
def oct (v : BitVec 7) : Oct := ⟨e v, e_ne_end v⟩

/-- The implementation for data of any bytes. -/
def ops8 (m : Sx.Mem) : SxOps (Buf .bytes) Oct where
  compact b := .ok b
  payloadSize := payloadSize
  moveTail := moveTail
  writeDatum b v i := modifyAt b (i + 1) fun _ => v.val
  resize := resize m

theorem ops_contra (m : Sx.Mem) : ops m = (ops8 m).contra oct := rfl

theorem oct_map (l : List (BitVec 7)) : (l.map oct).map Subtype.val = l.map e := by
  rw [List.map_map]; rfl

theorem end_notin8 (l : List Oct) : endByte ∉ l.map Subtype.val := by
  intro h
  rw [List.mem_map] at h
  obtain ⟨v, _, hv⟩ := h
  exact v.2 hv

theorem octs_map {p : List (BitVec 8)} (h : endByte ∉ p) : ∃ l : List Oct, p = l.map Subtype.val := by
  refine ⟨p.attach.map fun x => ⟨x.1, fun hx => h (hx ▸ x.2)⟩, ?_⟩
  rw [List.map_map]
  exact (List.attach_map_subtype_val p).symm

def zero8 : Oct := ⟨0, by decide⟩

theorem write_raw8 {p rest : List (BitVec 8)} (v : Oct) {i : Nat} (h : i < p.length) :
    modifyAt (raw p rest) (i + 1) (fun _ => v.val) = .ok (raw (p.set i v.val) rest) := by
  rw [modifyAt_ok (by rw [raw_length]; omega)]
  unfold raw
  rw [List.set_cons_succ, List.set_append_left _ _ h]

/-- The message holds `l` and there is no end byte behind it. -/
def Clean8 (N : Option Nat) (s : Buf .bytes) (l : List Oct) : Prop :=
  ∃ r : List Oct, s = raw (l.map Subtype.val) (r.map Subtype.val) ∧ ∀ n, N = some n → s.length = n

/-- The message holds `l`; on a growable buffer nothing follows it. -/
def Kept8 (N : Option Nat) (s : Buf .bytes) (l : List Oct) : Prop :=
  ∃ rest, s = raw (l.map Subtype.val) rest ∧ (N = none → rest = []) ∧ ∀ n, N = some n → s.length = n

/-- `Vec::resize` on lists of such bytes. -/
def resize8 (l : List Oct) (n : Nat) : List Oct := l.take n ++ List.replicate (n - l.length) zero8

theorem resize8_length (l : List Oct) (n : Nat) : (resize8 l n).length = n := by
  unfold resize8
  simp; omega

theorem map_resize8 (l : List Oct) (n : Nat) :
    vecResize (l.map Subtype.val) n = (resize8 l n).map Subtype.val := by
  unfold vecResize resize8
  rw [List.map_append, List.map_take, List.map_replicate, List.length_map]
  rfl

theorem join8 (l r : List Oct) :
    l.map Subtype.val ++ 0 :: r.map Subtype.val = (l ++ zero8 :: r).map Subtype.val := by
  rw [List.map_append, List.map_cons]; rfl

theorem length_raw8 (l r : List Oct) :
    (raw (l.map Subtype.val) (r.map Subtype.val)).length = l.length + r.length + 2 := by
  rw [raw_length, List.length_map, List.length_map]

theorem laws8 (N : Option Nat) :
    SxLaws (ops8 (Sx.memOf N)) (Clean8 N) (Clean8 N) (Kept8 N) (limit N) where
  weaken h := h
  bound := by
    rintro s l ⟨r, rfl, hN⟩
    cases N with
    | none => intro c hc; cases hc
    | some n =>
      intro c hc
      cases hc
      have := hN n rfl
      rw [length_raw8] at this
      show l.length ≤ n - 2
      omega
  size := by
    rintro s l ⟨r, rfl, hN⟩
    have := payloadSize_raw (rest := r.map Subtype.val) (end_notin8 l)
    rw [List.length_map] at this
    exact this
  write := by
    rintro s l v i ⟨r, rfl, hN⟩ hi
    refine ⟨_, write_raw8 v (by simpa using hi), r, by rw [List.map_set], ?_⟩
    intro n hn
    rw [← hN n hn]
    simp [raw]
  same := by
    rintro s l i ⟨r, rfl, hN⟩
    exact ⟨_, moveSame_raw (end_notin8 l) i, r, rfl, hN⟩
  up := by
    rintro s l tail to ⟨r, rfl, hN⟩ h1 h2
    refine ⟨_, moveUp_raw (end_notin8 l) h1 (by simpa using h2), r, ?_, ?_⟩
    · simp only [List.map_append, List.map_take, List.map_drop, List.length_map]
    · intro n hn
      rw [← hN n hn, raw_length, raw_length]
      simp; omega
  down := by
    rintro s l tail to ⟨r, rfl, hN⟩ h1 h2
    refine ⟨_, moveDown_raw (end_notin8 l) h1 (by simpa using h2), r, ?_, ?_⟩
    · simp only [List.map_append, List.map_take, List.map_drop, List.length_map]
    · intro n hn
      rw [← hN n hn, raw_length, raw_length]
      simp; omega
  resize := by
    rintro s l n ⟨r, rfl, hN⟩ hf hg
    cases N with
    | none =>
      rcases Nat.lt_or_ge l.length n with h | h
      · refine ⟨_, resize8 (l ++ zero8 :: r) n, ?_, ⟨[], rfl, ?_⟩, resize8_length _ _, ?_⟩
        · show (do return (← resizeVec _ n, none) : Res _) = _
          rw [resizeVec_grow (end_notin8 l) (by simpa using h), join8, map_resize8]
          rfl
        · intro _ h; cases h
        · unfold resize8
          rw [List.take_append_of_le_length (by simp; omega), List.take_take,
            Nat.min_eq_left (by omega), List.take_of_length_le (Nat.le_of_lt h), List.take_left]
      · refine ⟨_, l.take n, ?_, ⟨[], rfl, ?_⟩, by simp; omega, ?_⟩
        · show (do return (← resizeVec _ n, none) : Res _) = _
          rw [resizeVec_shrink (end_notin8 l) (by simpa using h), ← List.map_take]
          rfl
        · intro _ h; cases h
        · rw [List.take_take, Nat.min_eq_right h]
    | some m =>
      have hg' : l.length ≤ n := hg.resolve_left (by simp [limit])
      have hm := hN m rfl
      have hn : n ≤ m - 2 := hf _ rfl
      rw [length_raw8] at hm
      refine ⟨_, (l ++ zero8 :: r).take n, ?_, ⟨(l ++ zero8 :: r).drop (n + 1), rfl, ?_⟩, ?_, ?_⟩
      · show tryResizeFixed _ n = _
        rw [tryResize_fits (end_notin8 l) (by rw [length_raw8]; omega) (by rw [List.length_map]; omega),
          join8, List.map_take, List.map_drop]
      · intro m' hm'
        cases hm'
        rw [length_raw8]
        simp; omega
      · simp; omega
      · rw [List.take_take, Nat.min_eq_left hg', List.take_left, List.take_of_length_le hg']
  shrink := by
    rintro s l n ⟨r, rfl, hN⟩ hn
    cases N with
    | none =>
      refine ⟨_, ?_, [], rfl, fun _ => rfl, fun _ h => by cases h⟩
      show (do return (← resizeVec _ n, none) : Res _) = _
      rw [resizeVec_shrink (end_notin8 l) (by simpa using hn), ← List.map_take]
      rfl
    | some m =>
      have hm := hN m rfl
      rw [length_raw8] at hm
      rcases Nat.lt_or_ge l.length (n + 2) with h | h
      · refine ⟨raw ((l.take n).map Subtype.val) (((l ++ zero8 :: r).drop (n + 1)).map Subtype.val),
          ?_, _, rfl, (fun h => by cases h), ?_⟩
        · show tryResizeFixed _ n = _
          rw [tryResize_fits (end_notin8 l) (by rw [length_raw8]; omega) (by rw [List.length_map]; omega),
            join8, ← List.map_take, ← List.map_drop, List.take_append_of_le_length hn]
        · intro m' hm'
          cases hm'
          rw [length_raw8]
          simp; omega
      · refine ⟨raw ((l.take n).map Subtype.val)
          ((l.map Subtype.val).drop (n + 1) ++ endByte :: r.map Subtype.val), ?_, _, rfl,
          (fun h => by cases h), ?_⟩
        · show tryResizeFixed _ n = _
          rw [tryResize_shrinks (end_notin8 l) (by rw [List.length_map]; omega), ← List.map_take]
        · intro m' hm'
          cases hm'
          rw [raw_length]
          simp; omega
  full := by
    rintro s l n c ⟨r, rfl, hN⟩ hl hc
    cases N with
    | none => cases hl
    | some m =>
      cases hl
      have hm := hN m rfl
      rw [length_raw8] at hm
      have hcap : m - 2 = l.length + r.length := by omega
      simp only [hcap] at hc ⊢
      refine ⟨_, (l ++ zero8 :: r).take (l.length + r.length), ?_, ⟨[], rfl, ?_⟩, ?_, ?_⟩
      · show tryResizeFixed _ n = _
        rw [tryResize_full (end_notin8 l) (by rw [length_raw8]; omega), join8, List.map_take,
          List.length_map, List.length_map]
        rfl
      · intro m' hm'
        cases hm'
        rw [length_raw8]
        simp; omega
      · simp
      · rw [List.take_take, Nat.min_eq_left (by omega), List.take_left]

end Sxb

end Midi2
