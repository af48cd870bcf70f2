import Verif.Lemmas.SysexOps
import Verif.Model.SysexBytes

/-! # `Sysex7` over bytes: the laws of the splice -/

namespace Midi2

namespace Sxb

/-- A seven-bit byte as a byte. -/
def e (v : BitVec 7) : BitVec 8 := v.setWidth 8

theorem e_toNat (v : BitVec 7) : (e v).toNat = v.toNat := by
  unfold e
  rw [BitVec.toNat_setWidth]
  exact Nat.mod_eq_of_lt (by have := v.isLt; omega)

theorem e_ne_end (v : BitVec 7) : e v ≠ endByte := by
  intro h
  have := congrArg BitVec.toNat h
  rw [e_toNat] at this
  have := v.isLt
  simp [endByte] at *
  omega

theorem u7New_e (v : BitVec 7) : u7New (e v) = .ok v := by
  unfold u7New
  rw [e_toNat, if_pos v.isLt]
  congr 1
  apply BitVec.eq_of_toNat_eq
  rw [BitVec.toNat_setWidth, e_toNat]
  exact Nat.mod_eq_of_lt v.isLt

theorem u7New_ok {v : BitVec 8} (h : v.toNat < 128) : ∃ w : BitVec 7, e w = v ∧ u7New v = .ok w := by
  refine ⟨v.setWidth 7, ?_, by unfold u7New; rw [if_pos h]⟩
  apply BitVec.eq_of_toNat_eq
  rw [e_toNat, BitVec.toNat_setWidth]
  exact Nat.mod_eq_of_lt h

/-- A message with these bytes between the delimiters and `rest` behind. -/
def raw (p rest : List (BitVec 8)) : Buf .bytes := startByte :: (p ++ endByte :: rest)

theorem raw_length (p rest : List (BitVec 8)) : (raw p rest).length = p.length + rest.length + 2 := by
  unfold raw; simp; omega

theorem endPos_raw {p rest : List (BitVec 8)} (h : endByte ∉ p) :
    endPos (raw p rest) = some (p.length + 1) := by
  unfold endPos raw
  rw [List.findIdx?_cons]
  have : (startByte == endByte) = false := by decide
  rw [this]
  simp only [Bool.false_eq_true, if_false]
  have hn : p.findIdx? (· == endByte) = none := by
    rw [List.findIdx?_eq_none_iff]
    intro x hx
    rw [beq_eq_false_iff_ne]
    intro hh; subst hh; exact h hx
  rw [List.findIdx?_append, hn, List.findIdx?_cons]
  simp

theorem exists_raw {b : Buf .bytes} {i : Nat} (h0 : b[0]? = some startByte)
    (h : endPos b = some i) : ∃ p rest, b = raw p rest ∧ endByte ∉ p ∧ i = p.length + 1 := by
  unfold endPos at h
  cases b with
  | nil => cases h0
  | cons v t =>
    have hv : v = startByte := by simpa using h0
    subst hv
    rw [List.findIdx?_cons] at h
    have : (startByte == endByte) = false := by decide
    rw [this] at h
    simp only [Bool.false_eq_true, if_false, Option.map_eq_some_iff] at h
    obtain ⟨j, hj, rfl⟩ := h
    rw [List.findIdx?_eq_some_iff_getElem] at hj
    obtain ⟨hlt, hat, hbefore⟩ := hj
    refine ⟨t.take j, t.drop (j + 1), ?_, ?_, by simp; omega⟩
    · unfold raw
      have : t[j] = endByte := by simpa using hat
      rw [← this, List.getElem_cons_drop, List.take_append_drop]
    · intro hm
      rw [List.mem_iff_getElem] at hm
      obtain ⟨m, hm1, hm2⟩ := hm
      rw [List.length_take] at hm1
      rw [List.getElem_take] at hm2
      have := hbefore m (by omega)
      rw [hm2] at this
      simp at this

theorem size_raw {p rest : List (BitVec 8)} (h : endByte ∉ p) :
    size (raw p rest) = .ok (p.length + 2) := by
  unfold size
  rw [endPos_raw h]

theorem raw_split (p rest : List (BitVec 8)) :
    raw p rest = (startByte :: (p ++ [endByte])) ++ rest := by simp [raw]

theorem data_raw {p rest : List (BitVec 8)} (h : endByte ∉ p) :
    data (raw p rest) = .ok (startByte :: (p ++ [endByte])) := by
  unfold data sliceTo
  rw [size_raw h]
  simp only [Res.ok_bind]
  rw [if_pos (by rw [raw_length]; omega), raw_split, List.take_append_of_le_length (by simp),
    List.take_of_length_le (by simp)]

theorem payload_raw {p rest : List (BitVec 8)} (h : endByte ∉ p) :
    payload (raw p rest) = .ok ⟨p, 0⟩ := by
  unfold payload
  rw [data_raw h]
  simp only [Res.ok_bind]
  have hl : (startByte :: (p ++ [endByte])).length = p.length + 2 := by simp
  rw [hl, usub_ok (by omega)]
  simp only [Res.ok_bind]
  rw [if_pos ⟨by omega, by rw [raw_length]; omega⟩]
  have : ((raw p rest).take (p.length + 2 - 1)).drop 1 = p := by
    unfold raw
    rw [show p.length + 2 - 1 = p.length + 1 by omega, List.take_succ_cons, List.drop_succ_cons,
      List.drop_zero, List.take_left]
  rw [this]
  rfl

theorem payloadSize_raw {p rest : List (BitVec 8)} (h : endByte ∉ p) :
    payloadSize (raw p rest) = .ok p.length := by
  unfold payloadSize len
  rw [payload_raw h]
  simp only [Res.ok_bind]
  rw [usub_ok (Nat.zero_le _)]
  rfl

theorem end_notin (l : List (BitVec 7)) : endByte ∉ l.map e := by
  intro h
  rw [List.mem_map] at h
  obtain ⟨v, _, hv⟩ := h
  exact e_ne_end v hv

theorem collect_map (l : List (BitVec 7)) : ∀ (fuel i : Nat), l.length - i < fuel → i ≤ l.length →
    collect fuel ⟨l.map e, i⟩ = .ok (l.drop i) := by
  intro fuel
  induction fuel with
  | zero => intro i h; omega
  | succ fuel ih =>
    intro i h hi
    unfold collect next
    rcases Nat.lt_or_ge i l.length with hlt | hge
    · have e1 : (l.map e)[i]? = some (e l[i]) := by
        rw [List.getElem?_map, List.getElem?_eq_getElem hlt]; rfl
      simp only [e1, u7New_e, Res.ok_bind, Res.pure_eq]
      rw [ih (i + 1) (by omega) (by omega)]
      simp only [Res.ok_bind]
      rw [List.drop_eq_getElem_cons hlt]
    · have e1 : (l.map e)[i]? = none := by
        rw [List.getElem?_eq_none]; simpa using hge
      simp only [e1, Res.ok_bind, Res.pure_eq]
      rw [List.drop_eq_nil_of_le hge]

theorem payloadList_raw (l : List (BitVec 7)) (rest : List (BitVec 8)) :
    payloadList (raw (l.map e) rest) = .ok l := by
  unfold payloadList
  rw [payload_raw (end_notin l)]
  simp only [Res.ok_bind]
  rw [collect_map l _ 0 (by simp) (Nat.zero_le _), List.drop_zero]

theorem modifyAt_ok {α : Type} {b : List α} {i : Nat} (h : i < b.length) (f : α → α) :
    modifyAt b i f = .ok (b.set i (f b[i])) := by
  unfold modifyAt
  rw [List.getElem?_eq_getElem h]

theorem write_raw {p rest : List (BitVec 8)} (v : BitVec 7) {i : Nat} (h : i < p.length) :
    writeDatum (raw p rest) v i = .ok (raw (p.set i (e v)) rest) := by
  unfold writeDatum
  rw [modifyAt_ok (by rw [raw_length]; omega)]
  unfold raw
  rw [List.set_cons_succ, List.set_append_left _ _ h]
  rfl

theorem moveUp_raw {p rest : List (BitVec 8)} (hp : endByte ∉ p) {tail to : Nat} (h1 : tail < to)
    (h2 : to ≤ p.length) :
    moveTail (raw p rest) tail to =
      .ok (raw (p.take to ++ (p.drop tail).take (p.length - to)) rest) := by
  unfold moveTail
  rw [payloadSize_raw hp]
  simp only [Res.ok_bind]
  rw [if_pos h1]
  unfold copyWithin
  rw [if_pos ⟨by omega, by rw [raw_length]; omega, by rw [raw_length]; omega⟩]
  congr 1
  unfold raw
  have e1 : (startByte :: (p ++ endByte :: rest)).take (to + 1) = startByte :: p.take to := by
    rw [List.take_succ_cons, List.take_append_of_le_length h2]
  have e2 : ((startByte :: (p ++ endByte :: rest)).take (1 + tail + (p.length - to))).drop (1 + tail) =
      (p.drop tail).take (p.length - to) := by
    rw [show 1 + tail + (p.length - to) = (tail + (p.length - to)) + 1 by omega,
      Nat.add_comm 1 tail, List.take_succ_cons, List.drop_succ_cons,
      List.take_append_of_le_length (by omega), List.drop_take,
      show tail + (p.length - to) - tail = p.length - to by omega]
  have e3 : (startByte :: (p ++ endByte :: rest)).drop
      (to + 1 + (1 + tail + (p.length - to) - (1 + tail))) = endByte :: rest := by
    rw [show to + 1 + (1 + tail + (p.length - to) - (1 + tail)) = p.length + 1 by omega,
      List.drop_succ_cons, List.drop_left]
  rw [e1, e2, e3]
  simp

theorem moveDown_raw {p rest : List (BitVec 8)} (hp : endByte ∉ p) {tail to : Nat} (h1 : to < tail)
    (h2 : tail ≤ p.length) :
    moveTail (raw p rest) tail to =
      .ok (raw (p.take to ++ p.drop tail ++ p.drop (to + (p.length - tail))) rest) := by
  unfold moveTail
  rw [payloadSize_raw hp]
  simp only [Res.ok_bind]
  rw [if_neg (by omega), if_pos h1]
  unfold copyWithin
  rw [if_pos ⟨by omega, by rw [raw_length]; omega, by rw [raw_length]; omega⟩]
  congr 1
  unfold raw
  have e1 : (startByte :: (p ++ endByte :: rest)).take (to + 1) = startByte :: p.take to := by
    rw [List.take_succ_cons, List.take_append_of_le_length (by omega)]
  have e2 : ((startByte :: (p ++ endByte :: rest)).take (1 + p.length)).drop (1 + tail) =
      p.drop tail := by
    rw [Nat.add_comm 1, Nat.add_comm 1, List.take_succ_cons, List.drop_succ_cons, List.take_left]
  have e3 : (startByte :: (p ++ endByte :: rest)).drop (to + 1 + (1 + p.length - (1 + tail))) =
      p.drop (to + (p.length - tail)) ++ endByte :: rest := by
    rw [show to + 1 + (1 + p.length - (1 + tail)) = (to + (p.length - tail)) + 1 by omega,
      List.drop_succ_cons, List.drop_append_of_le_length (by omega)]
  rw [e1, e2, e3]
  simp

theorem moveSame_raw {p rest : List (BitVec 8)} (hp : endByte ∉ p) (i : Nat) :
    moveTail (raw p rest) i i = .ok (raw p rest) := by
  unfold moveTail
  rw [payloadSize_raw hp]
  simp only [Res.ok_bind]
  rw [if_neg (by omega), if_neg (by omega)]

theorem set_split {α : Type} (l : List α) {n : Nat} (h : n < l.length) (v : α) :
    l.set n v = l.take n ++ v :: l.drop (n + 1) := by
  rw [List.set_eq_take_append_cons_drop, if_pos h]

theorem raw_set (t : List (BitVec 8)) {n : Nat} (h : n < t.length) :
    (startByte :: t).set (n + 1) endByte = raw (t.take n) (t.drop (n + 1)) := by
  rw [List.set_cons_succ, set_split _ h]; rfl

/-- Erasing the end byte. -/
theorem erase_raw (p rest : List (BitVec 8)) :
    modifyAt (raw p rest) (p.length + 1) (fun _ => 0) = .ok (startByte :: (p ++ 0 :: rest)) := by
  rw [modifyAt_ok (by rw [raw_length]; omega)]
  unfold raw
  rw [List.set_cons_succ, List.set_append_right _ _ (Nat.le_refl _), Nat.sub_self]
  rfl

theorem modify_end (t : List (BitVec 8)) {n : Nat} (h : n < t.length) :
    modifyAt (startByte :: t) (n + 1) (fun _ => endByte) = .ok (raw (t.take n) (t.drop (n + 1))) := by
  rw [modifyAt_ok (by simpa using h), raw_set t h]

/-- `try_resize` that fits and does not shrink by two or more. -/
theorem tryResize_fits {p rest : List (BitVec 8)} (hp : endByte ∉ p) {n : Nat}
    (h : n + 2 ≤ (raw p rest).length) (hn : p.length < n + 2) :
    tryResizeFixed (raw p rest) n =
      .ok (raw ((p ++ 0 :: rest).take n) ((p ++ 0 :: rest).drop (n + 1)), none) := by
  unfold tryResizeFixed
  rw [payloadSize_raw hp]
  simp only [Res.ok_bind, h, decide_true, if_true]
  rw [if_pos hn, erase_raw]
  simp only [Res.ok_bind]
  rw [usub_ok (by omega)]
  simp only [Res.ok_bind]
  rw [show n + 2 - 1 = n + 1 by omega, modify_end _ (by
    rw [raw_length] at h
    simp only [List.length_append, List.length_cons]; omega)]
  rfl

/-- `try_resize` that shrinks by two or more: the old end byte stays behind. -/
theorem tryResize_shrinks {p rest : List (BitVec 8)} (hp : endByte ∉ p) {n : Nat}
    (hn : n + 2 ≤ p.length) :
    tryResizeFixed (raw p rest) n =
      .ok (raw (p.take n) (p.drop (n + 1) ++ endByte :: rest), none) := by
  have h : n + 2 ≤ (raw p rest).length := by rw [raw_length]; omega
  unfold tryResizeFixed
  rw [payloadSize_raw hp]
  simp only [Res.ok_bind, h, decide_true, if_true]
  rw [if_neg (by omega), usub_ok (by omega)]
  simp only [Res.ok_bind]
  rw [show n + 2 - 1 = n + 1 by omega]
  unfold raw
  rw [modify_end _ (by simp; omega)]
  simp only [Res.ok_bind, Res.pure_eq]
  unfold raw
  rw [List.take_append_of_le_length (by omega), List.drop_append_of_le_length (by omega)]

theorem tryResize_full {p rest : List (BitVec 8)} (hp : endByte ∉ p) {n : Nat}
    (h : (raw p rest).length < n + 2) :
    tryResizeFixed (raw p rest) n =
      .ok (raw ((p ++ 0 :: rest).take (p.length + rest.length)) [],
        some (p.length + rest.length)) := by
  unfold tryResizeFixed
  rw [payloadSize_raw hp]
  have h' : ¬ n + 2 ≤ (raw p rest).length := by omega
  simp only [Res.ok_bind, h', decide_false, Bool.false_eq_true, if_false]
  rw [if_pos (by rw [raw_length]; omega), erase_raw]
  simp only [Res.ok_bind]
  rw [usub_ok (by rw [raw_length]; omega)]
  simp only [Res.ok_bind]
  rw [raw_length, show p.length + rest.length + 2 - 1 = (p.length + rest.length) + 1 by omega,
    modify_end _ (by simp)]
  simp only [Res.ok_bind, Res.pure_eq]
  have e1 : (p ++ 0 :: rest).drop (p.length + rest.length + 1) = [] :=
    List.drop_eq_nil_of_le (by simp; omega)
  rw [e1, raw_length]
  simp

theorem vecResize_length {w : Nat} (b : List (BitVec w)) (n : Nat) : (vecResize b n).length = n := by
  unfold vecResize
  simp; omega

/-- `resize` on `Vec` that grows. -/
theorem resizeVec_grow {p rest : List (BitVec 8)} (hp : endByte ∉ p) {n : Nat} (hn : p.length < n) :
    resizeVec (raw p rest) n = .ok (raw (vecResize (p ++ 0 :: rest) n) []) := by
  unfold resizeVec
  rw [payloadSize_raw hp]
  simp only [Res.ok_bind]
  rw [if_pos hn]
  have e0 : vecResize (raw p rest) (n + 2) = raw p (vecResize rest (n - p.length)) := by
    unfold vecResize raw
    rw [List.take_succ_cons, List.take_append, List.take_of_length_le (by omega),
      show n + 1 - p.length = (n - p.length) + 1 by omega, List.take_succ_cons]
    simp only [List.length_cons, List.length_append, List.cons_append, List.append_assoc]
    rw [show n + 2 - (p.length + (rest.length + 1) + 1) = n - p.length - rest.length by omega]
  rw [e0, erase_raw]
  simp only [Res.ok_bind]
  have hl : (vecResize rest (n - p.length)).length = n - p.length := vecResize_length _ _
  rw [show n + 2 - 1 = n + 1 by omega, modify_end _ (by simp; omega)]
  congr 1
  have e1 : (p ++ 0 :: vecResize rest (n - p.length)).drop (n + 1) = [] :=
    List.drop_eq_nil_of_le (by simp; omega)
  have e2 : (p ++ 0 :: vecResize rest (n - p.length)).take n = vecResize (p ++ 0 :: rest) n := by
    unfold vecResize
    rw [List.take_append, List.take_append, List.take_of_length_le (by omega)]
    obtain ⟨m, hm⟩ : ∃ m, n - p.length = m + 1 := ⟨n - p.length - 1, by omega⟩
    rw [hm, List.take_succ_cons, List.take_succ_cons, List.append_assoc, List.cons_append]
    simp only [List.length_append, List.length_cons]
    rw [show n - (p.length + (rest.length + 1)) = m - rest.length by omega]
    congr 2
    rw [List.take_append, List.take_take, List.length_take, List.take_replicate]
    congr 1
    · congr 1; omega
    · congr 1; omega
  rw [e1, e2]

/-- `resize` on `Vec` that does not grow. -/
theorem resizeVec_shrink {p rest : List (BitVec 8)} (hp : endByte ∉ p) {n : Nat} (hn : n ≤ p.length) :
    resizeVec (raw p rest) n = .ok (raw (p.take n) []) := by
  unfold resizeVec
  rw [payloadSize_raw hp]
  simp only [Res.ok_bind]
  rw [if_neg (by omega)]
  have e0 : vecResize (raw p rest) (n + 2) = startByte :: ((p ++ endByte :: rest).take (n + 1)) := by
    unfold vecResize
    rw [show n + 2 - (raw p rest).length = 0 by rw [raw_length]; omega]
    unfold raw
    simp
  rw [e0, show n + 2 - 1 = n + 1 by omega, modify_end _ (by simp; omega)]
  congr 1
  rw [List.take_take, Nat.min_eq_left (by omega), List.take_append_of_le_length hn]
  congr 1
  exact List.drop_eq_nil_of_le (by simp; omega)

/-! ### The laws -/

/-- The message holds `l` and everything behind it is below `0x80`. -/
def Clean (N : Option Nat) (s : Buf .bytes) (l : List (BitVec 7)) : Prop :=
  ∃ r : List (BitVec 7), s = raw (l.map e) (r.map e) ∧ ∀ n, N = some n → s.length = n

/-- The message holds `l`; on a growable buffer nothing follows it. -/
def Kept (N : Option Nat) (s : Buf .bytes) (l : List (BitVec 7)) : Prop :=
  ∃ rest, s = raw (l.map e) rest ∧ (N = none → rest = []) ∧ ∀ n, N = some n → s.length = n

/-- The largest payload. -/
def limit (N : Option Nat) : Option Nat := N.map (· - 2)

theorem e_zero : e 0 = 0 := by decide

theorem map_vecResize (l : List (BitVec 7)) (n : Nat) :
    vecResize (l.map e) n = (vecResize l n).map e := by
  unfold vecResize
  rw [List.map_append, List.map_take, List.map_replicate, e_zero, List.length_map]

theorem join_map (l r : List (BitVec 7)) : l.map e ++ 0 :: r.map e = (l ++ 0 :: r).map e := by
  rw [List.map_append, List.map_cons, e_zero]

theorem length_raw_map (l r : List (BitVec 7)) :
    (raw (l.map e) (r.map e)).length = l.length + r.length + 2 := by
  rw [raw_length, List.length_map, List.length_map]

theorem laws (N : Option Nat) :
    SxLaws (ops (Sx.memOf N)) (Clean N) (Clean N) (Kept N) (limit N) where
  weaken h := h
  bound := by
    rintro s l ⟨r, rfl, hN⟩
    cases N with
    | none => intro c hc; cases hc
    | some n =>
      intro c hc
      cases hc
      have := hN n rfl
      rw [length_raw_map] at this
      show l.length ≤ n - 2
      omega
  size := by
    rintro s l ⟨r, rfl, hN⟩
    have := payloadSize_raw (rest := r.map e) (end_notin l)
    rw [List.length_map] at this
    exact this
  write := by
    rintro s l v i ⟨r, rfl, hN⟩ hi
    refine ⟨_, write_raw v (by simpa using hi), r, by rw [List.map_set], ?_⟩
    intro n hn
    rw [← hN n hn]
    simp [raw]
  same := by
    rintro s l i ⟨r, rfl, hN⟩
    exact ⟨_, moveSame_raw (end_notin l) i, r, rfl, hN⟩
  up := by
    rintro s l tail to ⟨r, rfl, hN⟩ h1 h2
    refine ⟨_, moveUp_raw (end_notin l) h1 (by simpa using h2), r, ?_, ?_⟩
    · simp
    · intro n hn
      rw [← hN n hn, raw_length, raw_length]
      simp; omega
  down := by
    rintro s l tail to ⟨r, rfl, hN⟩ h1 h2
    refine ⟨_, moveDown_raw (end_notin l) h1 (by simpa using h2), r, ?_, ?_⟩
    · simp
    · intro n hn
      rw [← hN n hn, raw_length, raw_length]
      simp; omega
  resize := by
    rintro s l n ⟨r, rfl, hN⟩ hf hg
    cases N with
    | none =>
      rcases Nat.lt_or_ge l.length n with h | h
      · refine ⟨_, vecResize (l ++ 0 :: r) n, ?_, ⟨[], rfl, ?_⟩, vecResize_length _ _, ?_⟩
        · show (do return (← resizeVec _ n, none) : Res _) = _
          rw [resizeVec_grow (end_notin l) (by simpa using h), join_map, map_vecResize]
          rfl
        · intro _ h; cases h
        · unfold vecResize
          rw [List.take_append_of_le_length (by simp; omega), List.take_take,
            Nat.min_eq_left (by omega), List.take_of_length_le (Nat.le_of_lt h), List.take_left]
      · refine ⟨_, l.take n, ?_, ⟨[], rfl, ?_⟩, by simp; omega, ?_⟩
        · show (do return (← resizeVec _ n, none) : Res _) = _
          rw [resizeVec_shrink (end_notin l) (by simpa using h), ← List.map_take]
          rfl
        · intro _ h; cases h
        · rw [List.take_take, Nat.min_eq_right h]
    | some m =>
      have hg' : l.length ≤ n := hg.resolve_left (by simp [limit])
      have hm := hN m rfl
      have hn : n ≤ m - 2 := hf _ rfl
      rw [length_raw_map] at hm
      refine ⟨_, (l ++ 0 :: r).take n, ?_, ⟨(l ++ 0 :: r).drop (n + 1), rfl, ?_⟩, ?_, ?_⟩
      · show tryResizeFixed _ n = _
        rw [tryResize_fits (end_notin l) (by rw [length_raw_map]; omega) (by rw [List.length_map]; omega),
          join_map, List.map_take, List.map_drop]
      · intro m' hm'
        cases hm'
        rw [length_raw_map]
        simp; omega
      · simp; omega
      · rw [List.take_take, Nat.min_eq_left hg', List.take_left, List.take_of_length_le hg']
  shrink := by
    rintro s l n ⟨r, rfl, hN⟩ hn
    cases N with
    | none =>
      refine ⟨_, ?_, [], rfl, fun _ => rfl, fun _ h => by cases h⟩
      show (do return (← resizeVec _ n, none) : Res _) = _
      rw [resizeVec_shrink (end_notin l) (by simpa using hn), ← List.map_take]
      rfl
    | some m =>
      have hm := hN m rfl
      rw [length_raw_map] at hm
      rcases Nat.lt_or_ge l.length (n + 2) with h | h
      · refine ⟨raw ((l.take n).map e) (((l ++ 0 :: r).drop (n + 1)).map e), ?_, _, rfl,
          (fun h => by cases h), ?_⟩
        · show tryResizeFixed _ n = _
          rw [tryResize_fits (end_notin l) (by rw [length_raw_map]; omega) (by rw [List.length_map]; omega),
            join_map, ← List.map_take, ← List.map_drop, List.take_append_of_le_length hn]
        · intro m' hm'
          cases hm'
          rw [length_raw_map]
          simp; omega
      · refine ⟨raw ((l.take n).map e) ((l.map e).drop (n + 1) ++ endByte :: r.map e), ?_, _, rfl,
          (fun h => by cases h), ?_⟩
        · show tryResizeFixed _ n = _
          rw [tryResize_shrinks (end_notin l) (by rw [List.length_map]; omega), ← List.map_take]
        · intro m' hm'
          cases hm'
          rw [raw_length]
          simp; omega
  full := by
    rintro s l n c ⟨r, rfl, hN⟩ hl hc
    cases N with
    | none => cases hl
    | some m =>
      cases hl
      have hm := hN m rfl
      rw [length_raw_map] at hm
      have hcap : m - 2 = l.length + r.length := by omega
      simp only [hcap] at hc ⊢
      refine ⟨_, (l ++ 0 :: r).take (l.length + r.length), ?_, ⟨[], rfl, ?_⟩, ?_, ?_⟩
      · show tryResizeFixed _ n = _
        rw [tryResize_full (end_notin l) (by rw [length_raw_map]; omega), join_map, List.map_take,
          List.length_map, List.length_map]
        rfl
      · intro m' hm'
        cases hm'
        rw [length_raw_map]
        simp; omega
      · simp
      · rw [List.take_take, Nat.min_eq_left (by omega), List.take_left]

end Sxb

end Midi2
