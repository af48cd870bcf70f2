import Verif.Lemmas.Custom
import Verif.Lemmas.SpliceCap

/-!
# Byte messages over a user-written buffer with a capacity

`try_resize` panics if it shortens the payload by one byte; everything else is as for a buffer
that grows.
-/

namespace Midi2

namespace Sxb

variable {cap : Nat} {f : (w : Nat) → List (BitVec w) → Nat → List (BitVec w) × Bool}

/-- The buffer without the limit: beyond it, filled with zeros. -/
def unlimited (cap : Nat) (f : (w : Nat) → List (BitVec w) → Nat → List (BitVec w) × Bool)
    (b : List (BitVec 8)) (n : Nat) : List (BitVec 8) :=
  if n ≤ cap then (f 8 b n).1 else growFilled 0 b n

theorem growFilled_keeps {w : Nat} (v : BitVec w) (b : List (BitVec w)) (n : Nat) :
    (growFilled v b n).length = n ∧ ∀ i, i < n → i < b.length → (growFilled v b n)[i]? = b[i]? := by
  unfold growFilled
  refine ⟨by simp; omega, fun i h1 h2 => ?_⟩
  rw [List.getElem?_append_left (by rw [List.length_take]; omega), List.getElem?_take, if_pos h1]

theorem unlimited_grows (hf : TryGrows (f 8) cap) : Grows (unlimited cap f) where
  length b n := by
    unfold unlimited
    split
    · exact hf.length b n ‹_›
    · exact (growFilled_keeps _ _ _).1
  keeps b n i h1 h2 := by
    unfold unlimited
    split
    · exact hf.keeps b n i ‹_› h1 h2
    · exact (growFilled_keeps _ _ _).2 i h1 h2

/-- What growth adds to a limited buffer of bytes is below `0x80`. -/
theorem unlimited_septets
    (h7 : ∀ b n i v, b.length ≤ i → (f 8 b n).1[i]? = some v → v.toNat < 128) :
    GrowsSeptets (unlimited cap f) := by
  intro b n i v hi hv
  unfold unlimited at hv
  split at hv
  · exact h7 b n i v hi hv
  · unfold growFilled at hv
    rw [List.getElem?_append_right (by rw [List.length_take]; omega), List.getElem?_replicate] at hv
    split at hv
    · cases hv; decide
    · cases hv

theorem tryGrow_id (hf : TryGrows (f 8) cap) (b : List (BitVec 8)) (hb : b.length ≤ cap) :
    f 8 b b.length = (b, true) := by
  refine Prod.ext ?_ (hf.ok b _ hb)
  apply List.ext_getElem?
  intro i
  by_cases h : i < b.length
  · exact hf.keeps b _ i hb h h
  · have := hf.length b _ hb
    show (f 8 b b.length).1[i]? = b[i]?
    rw [List.getElem?_eq_none (by omega), List.getElem?_eq_none (by omega)]

/-- `try_resize` to the size the payload has. -/
theorem tryResize_same (hf : TryGrows (f 8) cap) (l : List (BitVec 7)) (hl : l.length + 2 ≤ cap) :
    tryResizeGrow (f 8) (raw (l.map e) []) l.length = .ok (raw (l.map e) [], none) := by
  have hlen : (raw (l.map e) []).length = l.length + 2 := by
    rw [raw_length, List.length_map]; rfl
  have hid := tryGrow_id hf (raw (l.map e) []) (by omega)
  rw [hlen] at hid
  unfold tryResizeGrow
  rw [payloadSize_raw (end_notin l), List.length_map, hid]
  simp only [Res.ok_bind, if_true]
  rw [if_pos (by omega)]
  have em := erase_raw (l.map e) []
  rw [List.length_map] at em
  rw [em]
  simp only [Res.ok_bind]
  rw [usub_ok (by omega)]
  simp only [Res.ok_bind]
  rw [show l.length + 2 - 1 = l.length + 1 by omega, modify_end _ (by simp)]
  simp only [Res.ok_bind]
  rw [List.take_left' (by simp)]
  rw [List.drop_eq_nil_of_le (by simp)]
  rfl

/-- `try_resize` to a larger size within the capacity. -/
theorem tryResize_up (hf : TryGrows (f 8) cap)
    (h7 : ∀ b n i v, b.length ≤ i → (f 8 b n).1[i]? = some v → v.toNat < 128)
    (l : List (BitVec 7)) {n : Nat} (hl : l.length ≤ n) (hn : n + 2 ≤ cap) :
    ∃ l' : List (BitVec 7), tryResizeGrow (f 8) (raw (l.map e) []) n = .ok (raw (l'.map e) [], none) ∧
      l'.length = n ∧ l'.take l.length = l := by
  by_cases he : l.length = n
  · subst he
    exact ⟨l, tryResize_same hf l hn, rfl, List.take_length⟩
  obtain ⟨l', e1, h1, h2⟩ := resizeGrow_exact (unlimited_grows hf) (unlimited_septets h7) l [] n
  refine ⟨l', ?_, h1, by rw [h2, List.take_of_length_le hl]⟩
  rw [← Res.ok_bind (raw (l'.map e) []) (fun b => (.ok (b, none) : Res _)), ← e1]
  unfold tryResizeGrow resizeGrow
  rw [List.map_nil, payloadSize_raw (end_notin l), List.length_map]
  have hg : unlimited cap f (raw (l.map e) []) (n + 2) = (f 8 (raw (l.map e) []) (n + 2)).1 := by
    unfold unlimited; rw [if_pos hn]
  have hok := hf.ok (raw (l.map e) []) _ hn
  simp only [Res.ok_bind, hg, hok, if_true]
  rw [if_pos (by omega), if_pos (by omega), usub_ok (by omega)]
  simp only [Res.ok_bind, Res.pure_eq]
  cases modifyAt (f 8 (raw (l.map e) []) (n + 2)).1 (l.length + 1) fun _ => 0 <;> rfl

/-- `try_resize` to a size smaller by at least two. -/
theorem tryResize_down (hf : TryGrows (f 8) cap)
    (h7 : ∀ b n i v, b.length ≤ i → (f 8 b n).1[i]? = some v → v.toNat < 128)
    (l : List (BitVec 7)) {n : Nat} (hl : n + 2 ≤ l.length) (hn : l.length + 2 ≤ cap) :
    tryResizeGrow (f 8) (raw (l.map e) []) n = .ok (raw ((l.take n).map e) [], none) := by
  obtain ⟨l', e1, h1, h2⟩ := resizeGrow_exact (unlimited_grows hf) (unlimited_septets h7) l [] n
  rw [List.take_of_length_le (by omega)] at h2
  subst h2
  rw [← Res.ok_bind (raw ((l.take n).map e) []) (fun b => (.ok (b, none) : Res _)), ← e1]
  unfold tryResizeGrow resizeGrow
  rw [List.map_nil, payloadSize_raw (end_notin l), List.length_map]
  have hg : unlimited cap f (raw (l.map e) []) (n + 2) = (f 8 (raw (l.map e) []) (n + 2)).1 := by
    unfold unlimited; rw [if_pos (by omega)]
  have hok := hf.ok (raw (l.map e) []) (n + 2) (by omega)
  simp only [Res.ok_bind, hg, hok, if_true]
  rw [if_neg (by omega), if_neg (by omega), usub_ok (by omega)]
  simp only [Res.ok_bind, Res.pure_eq]

/-- `try_resize` to a size smaller by one. -/
theorem tryResize_panic (hf : TryGrows (f 8) cap) (l : List (BitVec 7)) {n : Nat}
    (hl : n + 1 = l.length) (hn : l.length + 2 ≤ cap) :
    tryResizeGrow (f 8) (raw (l.map e) []) n = .panic := by
  unfold tryResizeGrow
  rw [payloadSize_raw (end_notin l), List.length_map]
  have hok := hf.ok (raw (l.map e) []) (n + 2) (by omega)
  have hlen := hf.length (raw (l.map e) []) (n + 2) (by omega)
  simp only [Res.ok_bind, hok, if_true]
  rw [if_pos (by omega)]
  have : modifyAt (f 8 (raw (l.map e) []) (n + 2)).1 (l.length + 1) (fun _ => 0) = .panic := by
    unfold modifyAt
    rw [List.getElem?_eq_none (by omega)]
  rw [this]
  rfl

/-- `try_resize` beyond the capacity. -/
theorem tryResize_beyond (hf : TryGrows (f 8) cap) (l : List (BitVec 7)) {n : Nat}
    (hn : cap < n + 2) :
    tryResizeGrow (f 8) (raw (l.map e) []) n = .ok (raw (l.map e) [], some l.length) := by
  have hlen : (raw (l.map e) []).length = l.length + 2 := by
    rw [raw_length, List.length_map]; rfl
  unfold tryResizeGrow
  rw [payloadSize_raw (end_notin l), List.length_map, hf.full _ _ hn]
  simp only [Res.ok_bind, Bool.false_eq_true, if_false, hlen]
  rw [if_pos (by omega)]
  have em := erase_raw (l.map e) []
  rw [List.length_map] at em
  rw [em]
  simp only [Res.ok_bind]
  rw [usub_ok (by omega)]
  simp only [Res.ok_bind]
  rw [show l.length + 2 - 1 = l.length + 1 by omega, modify_end _ (by simp)]
  simp only [Res.ok_bind]
  rw [List.take_left' (by simp)]
  rw [List.drop_eq_nil_of_le (by simp)]
  simp [Res.pure_eq]

/-! ### The splice -/

theorem modifyAt_length {α : Type} {b b' : List α} {i : Nat} {g : α → α}
    (h : modifyAt b i g = .ok b') : b'.length = b.length := by
  unfold modifyAt at h
  split at h
  · cases h; simp
  · cases h

theorem copyWithin_length {b b' : Buf .bytes} {i j k : Nat} (h : copyWithin b i j k = .ok b') :
    b'.length = b.length := by
  unfold copyWithin at h
  split at h
  · cases h
    rename_i h
    simp
    omega
  · cases h

theorem exact_of_clean {s : Buf .bytes} {l : List (BitVec 7)} (h : Clean none s l)
    (hl : s.length = l.length + 2) : Exact s l := by
  obtain ⟨r, rfl, _⟩ := h
  rw [length_raw_map] at hl
  have : r = [] := List.eq_nil_of_length_eq_zero (by omega)
  subst this
  rfl

theorem exact_length {s : Buf .bytes} {l : List (BitVec 7)} (h : Exact s l) :
    s.length = l.length + 2 := by
  rw [h, raw_length, List.length_map]; rfl

theorem exact_clean {s : Buf .bytes} {l : List (BitVec 7)} (h : Exact s l) : Clean none s l :=
  ⟨[], h, fun _ h => by cases h⟩

theorem moveTail_length {b b' : Buf .bytes} {i j : Nat} (h : moveTail b i j = .ok b') :
    b'.length = b.length := by
  unfold moveTail at h
  cases hp : payloadSize b with
  | panic => rw [hp] at h; cases h
  | err e => rw [hp] at h; cases h
  | ok n =>
    rw [hp] at h
    simp only [Res.ok_bind] at h
    split at h
    · exact copyWithin_length h
    · split at h
      · exact copyWithin_length h
      · cases h; rfl

/-- The operations with a `try_resize` that can shorten the payload by one byte too. -/
def mended (cap : Nat) (f : (w : Nat) → List (BitVec w) → Nat → List (BitVec w) × Bool) :
    SxOps (Buf .bytes) (BitVec 7) :=
  { ops (.tryGrow f) with
    resize := fun b n => if n + 2 ≤ cap then do return (← resizeGrow (unlimited cap f) b n, none)
      else .ok (b, some (b.length - 2)) }

/-- A message of at most `cap` bytes and nothing else. -/
def Within (cap : Nat) (s : Buf .bytes) (l : List (BitVec 7)) : Prop :=
  Exact s l ∧ l.length + 2 ≤ cap

theorem mended_laws (hf : TryGrows (f 8) cap)
    (h7 : ∀ b n i v, b.length ≤ i → (f 8 b n).1[i]? = some v → v.toNat < 128) (hc : 2 ≤ cap) :
    SxLawsCap (mended cap f) (Within cap) (Within cap) (cap - 2) where
  weaken h := h
  bound h := by have := h.2; omega
  size h := (laws none).size (exact_clean h.1)
  write := by
    intro s l v i h hi
    obtain ⟨s', e1, c1⟩ := (laws none).write v i (exact_clean h.1) hi
    have hl := exact_length h.1
    have hl' : s'.length = s.length := modifyAt_length (g := fun _ => e v) e1
    exact ⟨s', e1, exact_of_clean c1 (by rw [List.length_set]; omega), by rw [List.length_set]; exact h.2⟩
  same := by
    intro s l i h
    obtain ⟨s', e1, c1⟩ := (laws none).same i (exact_clean h.1)
    have hl := exact_length h.1
    have hl' : s'.length = s.length := moveTail_length e1
    exact ⟨s', e1, exact_of_clean c1 (by omega), h.2⟩
  up := by
    intro s l tail to h h1 h2
    obtain ⟨s', e1, c1⟩ := (laws none).up tail to (exact_clean h.1) h1 h2
    have hl := exact_length h.1
    have hl' : s'.length = s.length := moveTail_length e1
    have hh := h.2
    exact ⟨s', e1, exact_of_clean c1 (by simp; omega), by simp; omega⟩
  down := by
    intro s l tail to h h1 h2
    obtain ⟨s', e1, c1⟩ := (laws none).down tail to (exact_clean h.1) h1 h2
    have hl := exact_length h.1
    have hl' : s'.length = s.length := moveTail_length e1
    have hh := h.2
    exact ⟨s', e1, exact_of_clean c1 (by simp; omega), by simp; omega⟩
  resize := by
    rintro s l n ⟨rfl, h⟩ hn
    obtain ⟨l', e1, h1, h2⟩ := resizeGrow_exact (unlimited_grows hf) (unlimited_septets h7) l [] n
    rw [List.map_nil] at e1
    refine ⟨_, l', ?_, ⟨rfl, by omega⟩, h1, h2⟩
    show (if n + 2 ≤ cap then _ else _) = _
    rw [if_pos (by omega), e1]
    rfl
  full := by
    intro s l n h hn
    refine ⟨s, l, ?_, h, Nat.le_refl _, List.take_length⟩
    show (if n + 2 ≤ cap then _ else _) = _
    rw [if_neg (by omega), exact_length h.1]
    rfl

theorem fill_mended (begin est : Nat) : ∀ (data : List (BitVec 7)) (s : Buf .bytes) (w : Nat),
    (ops (.tryGrow f)).fill begin est data s w = (mended cap f).fill begin est data s w := by
  intro data
  induction data with
  | nil => intro s w; rfl
  | cons v rest ih =>
    intro s w
    unfold SxOps.fill
    split
    · show (writeDatum s v (begin + w) >>= _) = (writeDatum s v (begin + w) >>= _)
      congr 1
      funext s'
      exact ih s' (w + 1)
    · rfl

variable (hf : TryGrows (f 8) cap)
  (h7 : ∀ b n i v, b.length ≤ i → (f 8 b n).1[i]? = some v → v.toNat < 128) (hc : 2 ≤ cap)

include hf h7 hc

/-- The loop when every item has its place. -/
theorem loop_done (pre y data mid : List (BitVec 7)) (initial old fuel : Nat) (s : Buf .bytes)
    (add : Nat) (hR : Within cap s (pre ++ mid ++ y)) (hd : data.length = mid.length) :
    ∃ s', (ops (.tryGrow f)).mainLoop pre.length initial old (fuel + 1) s data 0 mid.length add
        (pre.length + mid.length) = .ok (.done s' data.length (pre.length + data.length)) ∧
      Within cap s' (pre ++ data ++ y) := by
  have L := mended_laws hf h7 hc
  obtain ⟨s1, e1, r1⟩ := L.fill_spec pre y mid.length data s [] mid (by simpa using hR) (by simp)
  simp only [List.length_nil, Nat.zero_add, List.nil_append] at e1 r1
  rw [← fill_mended (f := f)] at e1
  simp only [SxOps.mainLoop, e1, Res.ok_bind]
  have et : data.take mid.length = data := List.take_of_length_le (by omega)
  have ed : data.drop mid.length = [] := List.drop_of_length_le (by omega)
  have em : mid.drop data.length = [] := List.drop_of_length_le (by omega)
  have emin : min mid.length data.length = data.length := by omega
  have ha : (data.length == mid.length) = true := by simp; omega
  rw [et, em, List.append_nil] at r1
  rw [ed, emin]
  refine ⟨s1, ?_, r1⟩
  simp only [show ¬ data.length < mid.length by omega, decide_false, ha, Res.assert, if_true,
    Res.ok_bind, List.isEmpty_nil, Bool.false_eq_true, if_false]
  rw [hd]
  rfl

/-- The loop when the data cannot fit.  The payload at the end: grown by 1, 2, 4, ... bytes, until
the next step does not fit. -/
theorem loop_overflow (begin old post : Nat) :
    ∀ (fuel : Nat) (s : Buf .bytes) (data l : List (BitVec 7)) (w est add : Nat),
      Within cap s l → l.length = begin + est + post → w ≤ est → est + 1 = old + add →
      (add = 1 ∨ add = 2 ∨ 4 ≤ add) → 0 < fuel →
      data.length + 1 ≤ fuel + (est - w) → cap < begin + w + data.length + post + 2 →
      ∃ s' l' a, (ops (.tryGrow f)).mainLoop begin (begin + old + post) old fuel s data w est add
          (begin + est) = .ok (.overflow s') ∧ Within cap s' l' ∧
        l'.length + 1 = begin + old + post + a ∧ (a = 1 ∨ a = 2 ∨ 4 ≤ a) ∧
        cap < l'.length + a + 2 := by
  have L := mended_laws hf h7 hc
  intro fuel
  induction fuel with
  | zero => intro s data l w est add _ _ _ _ _ h; omega
  | succ fuel ih =>
    intro s data l w est add hR hl hw ho hadd _ hfuel hbig
    have hb := hR.2
    have hcut : l = (l.take begin) ++ ((l.drop begin).take w) ++ ((l.drop (begin + w)).take (est - w)) ++
        l.drop (begin + est) := by
      rw [List.append_assoc, List.append_assoc]
      conv => lhs; rw [← List.take_append_drop begin l]
      congr 1
      conv => lhs; rw [← List.take_append_drop w (l.drop begin)]
      congr 1
      rw [List.drop_drop]
      conv => lhs; rw [← List.take_append_drop (est - w) (l.drop (begin + w))]
      congr 1
      rw [List.drop_drop]; congr 1; omega
    have h1 : (l.take begin).length = begin := by simp; omega
    have h2 : ((l.drop begin).take w).length = w := by simp; omega
    have h3 : ((l.drop (begin + w)).take (est - w)).length = est - w := by simp; omega
    obtain ⟨s1, e1, r1⟩ := L.fill_spec (l.take begin) (l.drop (begin + est)) est data s
      ((l.drop begin).take w) ((l.drop (begin + w)).take (est - w)) (by rw [← hcut]; exact hR)
      (by omega)
    rw [← fill_mended (f := f), h1, h2, h3] at e1
    have hlt : ¬ data.length < est - w := by omega
    simp only [SxOps.mainLoop, e1, Res.ok_bind, hlt, decide_false, Bool.false_eq_true, if_false]
    have hmin : w + min (est - w) data.length = est := by omega
    rw [hmin]
    have hne : (data.drop (est - w)).isEmpty = false := by
      rw [List.isEmpty_eq_false_iff]; intro h
      have := congrArg List.length h
      simp at this; omega
    simp only [beq_self_eq_true, Res.assert, if_true, Res.ok_bind, hne, Bool.false_eq_true, if_false]
    obtain ⟨l1, hl1, r1⟩ : ∃ l1, l1.length = begin + est + post ∧ Within cap s1 l1 := by
      refine ⟨_, ?_, r1⟩
      simp only [List.length_append, h1, h2, List.length_drop, List.length_take]
      omega
    unfold SxOps.growMore
    rw [if_pos (by omega), usub_ok (by omega)]
    simp only [Res.ok_bind]
    rw [show est + add + (begin + old + post) - old = begin + est + add + post by omega]
    by_cases hfit : begin + est + add + post + 2 ≤ cap
    · obtain ⟨l2, e2, n2, _⟩ := tryResize_up hf h7 l1 (n := begin + est + add + post) (by omega) hfit
      have e2' : (ops (.tryGrow f)).resize s1 (begin + est + add + post) =
          .ok (raw (l2.map e) [], none) := by rw [r1.1]; exact e2
      rw [e2']
      simp only [Res.ok_bind]
      obtain ⟨s3, l3, e3, r3, n3⟩ := L.move (s := raw (l2.map e) []) (l := l2) ⟨rfl, by omega⟩
        (begin + est) (begin + (est + add)) (by omega) (by omega)
      rw [show (ops (.tryGrow f)).moveTail _ (begin + est) (begin + (est + add)) = _ from e3]
      simp only [Res.ok_bind]
      rw [if_neg (by omega)]
      exact ih s3 _ l3 est (est + add) (add * 2) r3 (by omega) (by omega) (by omega) (by omega)
        (by simp at *; omega) (by simp at *; omega) (by simp; omega)
    · have e2' : (ops (.tryGrow f)).resize s1 (begin + est + add + post) = .ok (s1, some l1.length) := by
        rw [r1.1]; exact tryResize_beyond hf l1 (by omega)
      rw [e2']
      simp only [Res.ok_bind]
      rw [usub_ok (by omega)]
      simp only [Res.ok_bind]
      rw [show begin + old + post - old = begin + post by omega, usub_ok (by omega)]
      simp only [Res.ok_bind]
      obtain ⟨s3, l3, e3, r3, n3⟩ := L.move r1 (begin + est)
        (begin + (l1.length - (begin + post)) - old) (by omega) (by omega)
      rw [show (ops (.tryGrow f)).moveTail s1 (begin + est) _ = _ from e3]
      simp only [Res.ok_bind]
      rw [if_pos (by omega)]
      exact ⟨s3, l3, add, rfl, r3, by omega, hadd, by omega⟩

/-- What `try_splice_payload` does with an iterator that announces what it yields. -/
theorem trySplice_tryGrow (l : List (BitVec 7)) (hl : l.length + 2 ≤ cap) (d : Src (BitVec 7))
    (rb re : Bound) (h1 : rb.first ≤ re.last l.length) (h2 : re.last l.length ≤ l.length)
    (hd : d.upper.getD d.lower = d.items.length) :
    (ops (.tryGrow f)).trySplice (raw (l.map e) []) d rb re =
      if (spliced l rb.first (re.last l.length) d.items).length + 1 = l.length then .panic
      else if (spliced l rb.first (re.last l.length) d.items).length + 2 ≤ cap then
        .ok (raw ((spliced l rb.first (re.last l.length) d.items).map e) [], none)
      else if cap = 3 ∨ (cap = 4 ∧ l = []) then .panic
      else .ok (raw [] [], some .bufferOverflow) := by
  have L := mended_laws hf h7 hc
  have hcut := Sx.cut l rb.first (re.last l.length) h1
  have hpre : (l.take rb.first).length = rb.first := by rw [List.length_take]; omega
  have hold : ((l.take (re.last l.length)).drop rb.first).length = re.last l.length - rb.first := by
    simp only [List.length_drop, List.length_take]; omega
  have hpost : (l.drop (re.last l.length)).length = l.length - re.last l.length := by simp
  have hest : d.estimate = d.items.length := by
    rw [← hd]; unfold Src.estimate; cases d.upper <;> rfl
  have hsp : spliced l rb.first (re.last l.length) d.items =
      l.take rb.first ++ d.items ++ l.drop (re.last l.length) := rfl
  have hn : (spliced l rb.first (re.last l.length) d.items).length + (re.last l.length - rb.first) =
      d.items.length + l.length := by
    rw [hsp]; simp only [List.length_append, hpre, hpost]; omega
  have hps : (ops (.tryGrow f)).payloadSize (raw (l.map e) []) = .ok l.length :=
    L.size (s := raw (l.map e) []) (l := l) ⟨rfl, hl⟩
  generalize hE : re.last l.length = E at *
  generalize hB : rb.first = B at *
  generalize hm : d.items.length = m at *
  unfold SxOps.trySplice SxOps.trySpliceDetail
  show (((.ok (raw (l.map e) []) : Res (Buf .bytes)) >>= _) >>= _) = _
  simp only [Res.ok_bind]
  rw [hps]
  simp only [Res.ok_bind, Sx.spliceBegin_eq, Sx.spliceEnd_eq, hE, hB, hest, hm]
  rw [usub_ok (by omega)]
  simp only [Res.ok_bind]
  unfold SxOps.firstGrow
  rw [usub_ok (by omega)]
  simp only [Res.ok_bind]
  by_cases hmr : m ≤ E - B
  · -- no growth
    rw [if_neg (by omega)]
    simp only [Res.ok_bind]
    rw [usub_ok (by omega)]
    simp only [Res.ok_bind]
    have hto : E + m - (E - B) = B + m := by omega
    rw [hto]
    have hmv : ∃ s1 junk, moveTail (raw (l.map e) []) E (B + m) = .ok s1 ∧
        Within cap s1 (l.take B ++ (l.take (B + m)).drop B ++ (l.drop E ++ junk)) := by
      have hp : l.take (B + m) = l.take B ++ (l.take (B + m)).drop B := by
        conv => lhs; rw [← List.take_append_drop B (l.take (B + m))]
        rw [List.take_take, Nat.min_eq_left (by omega)]
      rcases Nat.lt_or_ge (B + m) E with h | h
      · obtain ⟨s1, e1, r1⟩ := L.down (s := raw (l.map e) []) (l := l) E (B + m) ⟨rfl, hl⟩ h h2
        refine ⟨s1, l.drop (B + m + (l.length - E)), e1, ?_⟩
        rw [← hp, ← List.append_assoc]
        exact r1
      · have hEB : B + m = E := by omega
        obtain ⟨s1, e1, r1⟩ := L.same (s := raw (l.map e) []) (l := l) E ⟨rfl, hl⟩
        refine ⟨s1, [], by rw [hEB]; exact e1, ?_⟩
        rw [← hp, List.append_nil, hEB, List.take_append_drop]
        exact r1
    obtain ⟨s1, junk, e1, r1⟩ := hmv
    rw [show (ops (.tryGrow f)).moveTail _ E (B + m) = _ from e1]
    simp only [Res.ok_bind]
    have hmid : ((l.take (B + m)).drop B).length = m := by
      simp only [List.length_drop, List.length_take]; omega
    obtain ⟨s2, e2, r2⟩ := loop_done hf h7 hc (l.take B) (l.drop E ++ junk) d.items
      ((l.take (B + m)).drop B) l.length (E - B) m s1 1 r1 (by rw [hmid, hm])
    rw [hpre, hmid, hm] at e2
    rw [e2]
    simp only [Res.ok_bind]
    obtain ⟨s3, e3, r3⟩ := L.same (B + m) r2
    rw [show (ops (.tryGrow f)).moveTail s2 (B + m) (B + m) = _ from e3]
    simp only [Res.ok_bind]
    rw [usub_ok (by omega)]
    simp only [Res.ok_bind]
    rw [← List.append_assoc, ← hsp] at r3
    generalize hW : spliced l B E d.items = W at *
    have hWl : m + l.length - (E - B) = W.length := by omega
    rw [hWl]
    have hjl : W.length + junk.length = l.length := by
      have a1 := exact_length r3.1
      have a2 : s3.length = s2.length := moveTail_length e3
      have a3 := exact_length r2.1
      have a4 := exact_length r1.1
      have a5 : s1.length = _ := moveTail_length e1
      rw [raw_length, List.length_map] at a5
      simp only [List.length_append, hpre, hmid, hm, hpost, List.length_nil] at a1 a3 a4 a5
      omega
    show ((tryResizeGrow (f 8) s3 W.length >>= _) >>= _) = _
    rw [r3.1]
    have hfl : (W ++ junk).length = l.length := by rw [List.length_append]; exact hjl
    by_cases hp1 : W.length + 1 = l.length
    · rw [if_pos hp1, tryResize_panic hf _ (by rw [hfl]; exact hp1) (by rw [hfl]; exact hl)]
      rfl
    · rw [if_neg hp1, if_pos (by omega)]
      by_cases h0 : junk = []
      · subst h0
        rw [List.append_nil, tryResize_same hf W (by omega)]
        rfl
      · have := List.length_pos_iff.mpr h0
        rw [tryResize_down hf h7 _ (by rw [hfl]; omega) (by rw [hfl]; exact hl), List.take_left]
        rfl
  · rw [if_pos (by omega), usub_ok (by omega)]
    simp only [Res.ok_bind]
    have hWl : m + l.length - (E - B) = (spliced l B E d.items).length := by omega
    rw [hWl]
    rw [if_neg (by omega)]
    by_cases hfit : (spliced l B E d.items).length + 2 ≤ cap
    · rw [if_pos hfit]
      obtain ⟨l', e1, n1, t1⟩ := tryResize_up hf h7 l (n := (spliced l B E d.items).length)
        (by omega) hfit
      rw [show (ops (.tryGrow f)).resize _ _ = _ from e1]
      simp only [Res.ok_bind]
      rw [usub_ok (by omega)]
      simp only [Res.ok_bind]
      have hl'cut : l' = l.take E ++ l.drop E ++ l'.drop l.length := by
        rw [List.take_append_drop]
        conv => lhs; rw [← List.take_append_drop l.length l', t1]
      have hto : E + m - (E - B) = E + (l'.drop l.length).length := by
        rw [List.length_drop]; omega
      have hEl : (l.take E).length = E := by rw [List.length_take]; omega
      obtain ⟨s2, e2, gap, hg, r2⟩ := L.fillUp (s := raw (l'.map e) []) (a := l.take E)
        (post := l.drop E) (rest := l'.drop l.length) (by rw [← hl'cut]; exact ⟨rfl, by omega⟩)
      rw [hEl, ← hto] at e2
      rw [show (ops (.tryGrow f)).moveTail _ E (E + m - (E - B)) = _ from e2]
      simp only [Res.ok_bind]
      have hp : l.take E = l.take B ++ (l.take E).drop B := by
        conv => lhs; rw [← List.take_append_drop B (l.take E)]
        rw [List.take_take, Nat.min_eq_left (by omega)]
      have hmid : ((l.take E).drop B ++ gap).length = m := by
        rw [List.length_append, hold, hg, List.length_drop]; omega
      obtain ⟨s3, e3, r3⟩ := loop_done hf h7 hc (l.take B) (l.drop E) d.items
        ((l.take E).drop B ++ gap) l.length (E - B) m s2 1
        (by rw [← List.append_assoc, ← hp]; exact r2) (by rw [hmid, hm])
      rw [hpre, hmid, hm] at e3
      rw [show E + m - (E - B) = B + m by omega, e3]
      simp only [Res.ok_bind]
      obtain ⟨s4, e4, r4⟩ := L.same (B + m) r3
      rw [show (ops (.tryGrow f)).moveTail s3 (B + m) (B + m) = _ from e4]
      simp only [Res.ok_bind]
      rw [usub_ok (by omega)]
      simp only [Res.ok_bind]
      rw [hWl]
      rw [← hsp] at r4
      show ((tryResizeGrow (f 8) s4 _ >>= _) >>= _) = _
      rw [r4.1, tryResize_same hf _ hfit]
      rfl
    · rw [if_neg hfit, show (ops (.tryGrow f)).resize _ _ = _ from tryResize_beyond hf l (by omega)]
      simp only [Res.ok_bind]
      rw [usub_ok (by omega)]
      simp only [Res.ok_bind]
      rw [show l.length - (l.length - (E - B)) = E - B by omega, usub_ok (by omega)]
      simp only [Res.ok_bind]
      rw [show E + (E - B) - (E - B) = E by omega]
      obtain ⟨s1, e1, r1⟩ := L.same (s := raw (l.map e) []) (l := l) E ⟨rfl, hl⟩
      rw [show (ops (.tryGrow f)).moveTail _ E E = _ from e1]
      simp only [Res.ok_bind]
      obtain ⟨s2, l2, a, e2, r2, g1, g2, g3⟩ := loop_overflow hf h7 hc B (E - B) (l.length - E)
        (m + 1) s1 d.items l 0 (E - B) 1 r1 (by omega) (by omega) (by omega) (by omega) (by omega)
        (by omega) (by omega)
      rw [show B + (E - B) + (l.length - E) = l.length by omega,
        show B + (E - B) = E by omega] at e2
      rw [e2]
      simp only [Res.ok_bind, Res.pure_eq]
      show (tryResizeGrow (f 8) s2 0 >>= _) = _
      rw [r2.1]
      have hb2 := r2.2
      have hnil : l = [] ↔ l.length = 0 := List.length_eq_zero_iff.symm
      by_cases hone : l2.length = 1
      · rw [tryResize_panic hf l2 (n := 0) (by omega) hb2, if_pos (by rw [hnil]; omega)]
        rfl
      · rw [if_neg (by rw [hnil]; omega)]
        by_cases hz : l2 = []
        · subst hz
          have := tryResize_same hf ([] : List (BitVec 7)) (by simpa using hc)
          rw [show ([] : List (BitVec 7)).length = 0 from rfl] at this
          rw [this]
          rfl
        · have := List.length_pos_iff.mpr hz
          rw [tryResize_down hf h7 l2 (n := 0) (by omega) hb2]
          rfl

end Sxb

end Midi2
