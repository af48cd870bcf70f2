import Verif.Lemmas.SysexPast
import Verif.Lemmas.SysexBytesSet
import Verif.Spec.SysexBytes
import Verif.Props.Sysex

/-!
# C16, C25 and the byte-stream parts of C05–C08, C20–C24, C45, C47: `Sysex7` over bytes
-/

namespace Midi2

open Sxb (e raw)

theorem raw_eq (l : List (BitVec 7)) (rest : List (BitVec 8)) :
    raw (l.map e) rest = sysexBytes l ++ rest := by
  unfold raw sysexBytes
  simp [e, Sxb.startByte, Sxb.endByte]

theorem sysexBytes_length (l : List (BitVec 7)) : (sysexBytes l).length = l.length + 2 := by
  simp [sysexBytes]

theorem holdsBytes (l : List (BitVec 7)) (rest : List (BitVec 8)) :
    HoldsBytes (sysexBytes l ++ rest) l := by
  rw [← raw_eq]
  have hn := Sxb.end_notin l
  refine ⟨Sxb.payloadList_raw l rest, ?_, ?_⟩
  · rw [Sxb.payloadSize_raw hn, List.length_map]
  · rw [Sxb.data_raw hn]
    exact congrArg Res.ok ((raw_eq l []).trans (List.append_nil _))

theorem holdsBytes_nil (l : List (BitVec 7)) : HoldsBytes (sysexBytes l) l := by
  have := holdsBytes l []
  rwa [List.append_nil] at this

/-! ## C05, C06, C07, C12: parsing -/

theorem bytes_tryFrom_cases (b : Buf .bytes) :
    (Sxb.tryFrom b = .ok b ∧ b.head? = some 0xF0 ∧ (0xF7 : BitVec 8) ∈ b) ∨
    (Sxb.tryFrom b = .err .invalidData ∧ ¬ (b.head? = some 0xF0 ∧ (0xF7 : BitVec 8) ∈ b)) := by
  unfold Sxb.tryFrom
  by_cases hl : b.length < 2
  · rw [if_pos hl]
    refine .inr ⟨rfl, ?_⟩
    rintro ⟨h1, h2⟩
    match b, hl with
    | [], _ => cases h1
    | [x], _ =>
      simp only [List.head?_cons, Option.some.injEq] at h1
      subst h1
      exact absurd h2 (by decide)
  · rw [if_neg hl]
    have hend : (Sxb.endPos b).isSome = true ↔ (0xF7 : BitVec 8) ∈ b := by
      unfold Sxb.endPos
      rw [List.findIdx?_isSome, List.any_eq_true]
      constructor
      · rintro ⟨x, hx, h⟩
        have : x = Sxb.endByte := by simpa using h
        subst this; exact hx
      · intro h
        exact ⟨_, h, by decide⟩
    match b, hl, hend with
    | [], hl, _ => exact absurd hl (by simp)
    | [_], hl, _ => exact absurd hl (by simp)
    | x :: y :: t, _, hend =>
      show (Res.ok x >>= _) = _ ∧ _ ∨ (Res.ok x >>= _) = _ ∧ _
      simp only [Res.ok_bind, List.head?_cons, Option.some.injEq]
      by_cases hx : x = 0xF0
      · have h1 : (x == Sxb.startByte) = true := by subst hx; decide
        rw [h1]
        by_cases he : (0xF7 : BitVec 8) ∈ x :: y :: t
        · rw [hend.mpr he]
          exact .inl ⟨rfl, hx, he⟩
        · have h2 : (Sxb.endPos (x :: y :: t)).isSome = false := by
            rw [Bool.eq_false_iff]; intro h; exact he (hend.mp h)
          rw [h2]
          exact .inr ⟨rfl, fun h => he h.2⟩
      · have h1 : (x == Sxb.startByte) = false := by
          rw [beq_eq_false_iff_ne]; exact hx
        rw [h1]
        exact .inr ⟨rfl, fun h => hx h.1⟩

/-- C05: parsing bytes as `Sysex7` returns the slice or `InvalidData`. -/
theorem C05_sysex7_bytes_total (b : Buf .bytes) :
    Sxb.tryFrom b = .ok b ∨ Sxb.tryFrom b = .err .invalidData := by
  rcases bytes_tryFrom_cases b with h | h
  · exact .inl h.1
  · exact .inr h.1

example : Sxb.tryFrom [0xF0, 1, 2, 0xF7] = .ok [0xF0, 1, 2, 0xF7] ∧
    Sxb.tryFrom [0xF0, 1, 2] = .err .invalidData := by decide +kernel

/-- C07: a slice is accepted exactly when it begins with `F0` and contains `F7`. -/
theorem C07_sysex7_bytes_accepts_exactly (b : Buf .bytes) :
    Sxb.tryFrom b = .ok b ↔ b.head? = some 0xF0 ∧ (0xF7 : BitVec 8) ∈ b := by
  rcases bytes_tryFrom_cases b with h | h
  · exact ⟨fun _ => h.2, fun _ => h.1⟩
  · refine ⟨fun h' => ?_, fun h' => absurd h' h.2⟩
    rw [h.1] at h'; cases h'

example : Sxb.tryFrom [0xF0, 1, 2, 0xF7, 0x90] = .ok [0xF0, 1, 2, 0xF7, 0x90] :=
  (C07_sysex7_bytes_accepts_exactly _).mpr (by decide)

theorem accepted_raw {b : Buf .bytes} (h : Sxb.tryFrom b = .ok b) :
    ∃ p rest, b = raw p rest ∧ Sxb.endByte ∉ p := by
  obtain ⟨h1, h2⟩ := (C07_sysex7_bytes_accepts_exactly b).mp h
  cases b with
  | nil => cases h1
  | cons x t =>
    simp only [List.head?_cons, Option.some.injEq] at h1
    subst h1
    have : (0xF7 : BitVec 8) ∈ t := by
      rcases List.mem_cons.mp h2 with h | h
      · exact absurd h (by decide)
      · exact h
    obtain ⟨p, r, rfl, hp⟩ := List.eq_append_cons_of_mem this
    exact ⟨p, r, rfl, hp⟩

theorem septets_map {p : List (BitVec 8)} (h : ∀ x ∈ p, x.toNat < 128) :
    ∃ l : List (BitVec 7), l.map e = p := by
  induction p with
  | nil => exact ⟨[], rfl⟩
  | cons x p ih =>
    obtain ⟨l, rfl⟩ := ih (fun y hy => h y (List.mem_cons_of_mem _ hy))
    obtain ⟨w, hw, _⟩ := Sxb.u7New_ok (h x List.mem_cons_self)
    exact ⟨w :: l, by rw [List.map_cons, hw]⟩

theorem collect_panics (p : List (BitVec 8)) : ∀ (fuel i : Nat), p.length - i < fuel →
    (∃ j, i ≤ j ∧ ∃ x, p[j]? = some x ∧ 128 ≤ x.toNat) →
    Sxb.collect fuel ⟨p, i⟩ = .panic := by
  intro fuel
  induction fuel with
  | zero => intro i h; omega
  | succ fuel ih =>
    rintro i hi ⟨j, hj, x, hx, hbig⟩
    have hjl : j < p.length := by
      rcases Nat.lt_or_ge j p.length with h | h
      · exact h
      · rw [List.getElem?_eq_none h] at hx; cases hx
    have hil : i < p.length := by omega
    unfold Sxb.collect Sxb.next
    simp only [List.getElem?_eq_getElem hil]
    unfold Sxb.u7New
    by_cases hs : p[i].toNat < 128
    · rw [if_pos hs]
      simp only [Res.ok_bind, Res.pure_eq]
      have hne : i ≠ j := by
        intro h
        subst h
        rw [List.getElem?_eq_getElem hil] at hx
        cases hx
        omega
      rw [ih (i + 1) (by omega) ⟨j, by omega, x, hx, hbig⟩]
      rfl
    · rw [if_neg hs]; rfl

/-- C06: `data()` of an accepted slice is the part from `F0` to the first `F7`, and
`payload_size()` counts the bytes in between, whatever they are; iterating `payload()`
yields them if all are below `0x80` and panics otherwise. -/
theorem C06_sysex7_bytes_reads_partial (b : Buf .bytes) (h : Sxb.tryFrom b = .ok b) :
    ∃ p rest : List (BitVec 8), b = 0xF0 :: p ++ 0xF7 :: rest ∧ (0xF7 : BitVec 8) ∉ p ∧
      Sxb.data b = .ok (0xF0 :: p ++ [0xF7]) ∧ Sxb.payloadSize b = .ok p.length ∧
      ((∀ x ∈ p, x.toNat < 128) →
        ∃ l, Sxb.payloadList b = .ok l ∧ l.map BitVec.toNat = p.map BitVec.toNat) ∧
      ((∃ x ∈ p, 128 ≤ x.toNat) → Sxb.payloadList b = .panic) := by
  obtain ⟨p, rest, rfl, hp⟩ := accepted_raw h
  refine ⟨p, rest, rfl, hp, ?_, Sxb.payloadSize_raw hp, ?_, ?_⟩
  · rw [Sxb.data_raw hp]; rfl
  · intro hs
    obtain ⟨l, rfl⟩ := septets_map hs
    refine ⟨l, Sxb.payloadList_raw l rest, ?_⟩
    rw [List.map_map]
    apply List.map_congr_left
    intro v _
    exact (Sxb.e_toNat v).symm
  · rintro ⟨x, hx, hbig⟩
    unfold Sxb.payloadList
    rw [Sxb.payload_raw hp]
    simp only [Res.ok_bind]
    obtain ⟨j, hj⟩ := List.getElem?_of_mem hx
    exact collect_panics p _ 0 (by omega) ⟨j, by omega, x, hj, hbig⟩

example : ∃ p : List (BitVec 8), Sxb.data [0xF0, 1, 2, 0xF7, 0x90] = .ok (0xF0 :: p ++ [0xF7]) ∧
    Sxb.payloadSize [0xF0, 1, 2, 0xF7, 0x90] = .ok p.length :=
  have ⟨p, _, _, _, h1, h2, _⟩ := C06_sysex7_bytes_reads_partial [0xF0, 1, 2, 0xF7, 0x90] (by decide +kernel)
  ⟨p, h1, h2⟩

/-- C06 fails for bytes with the top bit set inside a message. -/
theorem C06_sysex7_bytes_violation :
    ∃ b : Buf .bytes, Sxb.tryFrom b = .ok b ∧ Sxb.payloadList b = .panic :=
  ⟨[0xF0, 0x01, 0x80, 0xF7], by decide +kernel⟩

/-- C12: what follows the first `F7` does not matter. -/
theorem C12_sysex7_bytes_suffix (b c : Buf .bytes) (h : Sxb.tryFrom b = .ok b) :
    Sxb.tryFrom (b ++ c) = .ok (b ++ c) ∧ Sxb.data (b ++ c) = Sxb.data b ∧
      Sxb.payloadList (b ++ c) = Sxb.payloadList b ∧
      Sxb.payloadSize (b ++ c) = Sxb.payloadSize b := by
  obtain ⟨p, rest, rfl, hp⟩ := accepted_raw h
  have hr : raw p rest ++ c = raw p (rest ++ c) := by simp [raw]
  refine ⟨?_, ?_, ?_, ?_⟩
  · rw [C07_sysex7_bytes_accepts_exactly] at h ⊢
    obtain ⟨h1, h2⟩ := h
    refine ⟨?_, List.mem_append_left _ h2⟩
    simp [raw] at h1 ⊢
    exact h1
  · rw [hr, Sxb.data_raw hp, Sxb.data_raw hp]
  · unfold Sxb.payloadList
    rw [hr, Sxb.payload_raw hp, Sxb.payload_raw hp]
  · rw [hr, Sxb.payloadSize_raw hp, Sxb.payloadSize_raw hp]

-- C07/C06/C12: a message with two bytes and something behind it.
example : Sxb.tryFrom [0xF0, 1, 2, 0xF7, 0x90, 0xF7] = .ok [0xF0, 1, 2, 0xF7, 0x90, 0xF7] ∧
    Sxb.payloadList [0xF0, 1, 2, 0xF7, 0x90, 0xF7] = .ok [1, 2] ∧
    Sxb.data [0xF0, 1, 2, 0xF7, 0x90, 0xF7] = .ok [0xF0, 1, 2, 0xF7] := by decide +kernel

theorem accepted_payload {b : Buf .bytes} (h : Sxb.tryFrom b = .ok b) {l : List (BitVec 7)}
    (hl : Sxb.payloadList b = .ok l) : ∃ rest, b = sysexBytes l ++ rest := by
  obtain ⟨p, rest, hb, hp, _, _, h1, h2⟩ := C06_sysex7_bytes_reads_partial b h
  by_cases hs : ∀ x ∈ p, x.toNat < 128
  · obtain ⟨l', rfl⟩ := septets_map hs
    have hb' : b = sysexBytes l' ++ rest := by rw [← raw_eq]; exact hb
    have := (holdsBytes l' rest).payload
    rw [← hb', hl] at this
    cases this
    exact ⟨rest, hb'⟩
  · have : ∃ x ∈ p, 128 ≤ x.toNat := by
      simp only [Classical.not_forall] at hs
      obtain ⟨x, hx, hh⟩ := hs
      exact ⟨x, hx, by omega⟩
    rw [h2 this] at hl
    cases hl

theorem sysexBytes_accepted (l : List (BitVec 7)) (rest : List (BitVec 8)) :
    Sxb.tryFrom (sysexBytes l ++ rest) = .ok (sysexBytes l ++ rest) := by
  rw [C07_sysex7_bytes_accepts_exactly]
  exact ⟨rfl, by simp [sysexBytes]⟩

/-! ## C08: constructors -/

/-- C08: the constructors on growable buffers yield exactly `F0 F7`, those on fixed buffers
`F0 F7` in front of what was there, and the fallible ones fail exactly below two bytes. -/
theorem C08_sysex7_bytes (b : Buf .bytes) (n : Nat) :
    Sxb.newVec = .ok (sysexBytes []) ∧ Sxb.newWithBuffer b = .ok (sysexBytes []) ∧
    (b.length < 2 → Sxb.tryNewWithBuffer b = .err .bufferOverflow) ∧
    (2 ≤ b.length → Sxb.tryNewWithBuffer b = .ok (sysexBytes [] ++ b.drop 2)) ∧
    (n < 2 → Sxb.tryNew n = .err .bufferOverflow) ∧
    (2 ≤ n → Sxb.tryNew n = .ok (sysexBytes [] ++ List.replicate (n - 2) 0) ∧
      Sxb.newArray n = .ok (sysexBytes [] ++ List.replicate (n - 2) 0)) := by
  have hinit : ∀ (x y : BitVec 8) t, Sxb.init (x :: y :: t) = .ok (sysexBytes [] ++ t) :=
    fun _ _ _ => rfl
  have hrep : 2 ≤ n → Sxb.init (List.replicate n 0) = .ok (sysexBytes [] ++ List.replicate (n - 2) 0) := by
    intro h
    obtain ⟨m, rfl⟩ : ∃ m, n = m + 2 := ⟨n - 2, by omega⟩
    rfl
  refine ⟨rfl, ?_, ?_, ?_, ?_, ?_⟩
  · unfold Sxb.newWithBuffer zeroPrefix
    rw [List.drop_eq_nil_of_le (by rw [Sxb.vecResize_length]; exact Nat.le_refl _)]
    rfl
  · intro h
    unfold Sxb.tryNewWithBuffer fixedTryResize
    rw [if_pos h]; rfl
  · intro h
    unfold Sxb.tryNewWithBuffer fixedTryResize
    rw [if_neg (by omega)]
    rfl
  · intro h
    unfold Sxb.tryNew fixedTryResize
    rw [if_pos (by rw [List.length_replicate]; exact h)]; rfl
  · intro h
    constructor
    · unfold Sxb.tryNew fixedTryResize
      rw [if_neg (by rw [List.length_replicate]; omega)]
      exact hrep h
    · unfold Sxb.newArray
      rw [if_neg (by omega)]
      exact hrep h

example : Sxb.tryNewWithBuffer [1, 2, 3] = .ok [0xF0, 0xF7, 3] ∧
    Sxb.tryNew 1 = .err .bufferOverflow ∧ Sxb.newArray 4 = .ok [0xF0, 0xF7, 0, 0] := by decide +kernel

/-! ## C16: `set_payload` -/

theorem clean_of {l : List (BitVec 7)} {r : List (BitVec 8)} (hr : ∀ x ∈ r, x.toNat < 128)
    {N : Option Nat} (hN : ∀ n, N = some n → (sysexBytes l ++ r).length = n) :
    Sxb.Clean N (sysexBytes l ++ r) l := by
  obtain ⟨r', rfl⟩ := septets_map hr
  exact ⟨r', (raw_eq l _).symm, hN⟩

theorem kept_none {b : Buf .bytes} {l : List (BitVec 7)} (h : Sxb.Kept none b l) :
    b = sysexBytes l := by
  obtain ⟨rest, rfl, h1, _⟩ := h
  rw [h1 rfl, raw_eq, List.append_nil]

theorem kept_some {b : Buf .bytes} {l : List (BitVec 7)} {n : Nat} (h : Sxb.Kept (some n) b l) :
    (∃ rest, b = sysexBytes l ++ rest) ∧ b.length = n := by
  obtain ⟨rest, rfl, _, h2⟩ := h
  exact ⟨⟨rest, raw_eq l rest⟩, h2 n rfl⟩

/-- Splicing on a growable buffer. -/
theorem bytes_splice_vec (l : List (BitVec 7)) (r : List (BitVec 8)) (hr : ∀ x ∈ r, x.toNat < 128)
    (d : Src (BitVec 7)) (rb re : Bound)
    (h1 : rb.first ≤ re.last l.length) (h2 : re.last l.length ≤ l.length) :
    (Sxb.ops .vec).splice (sysexBytes l ++ r) d rb re =
      .ok (sysexBytes (spliced l rb.first (re.last l.length) d.items)) := by
  have hcut := Sx.cut l rb.first (re.last l.length) h1
  have hlen : ((l.take (re.last l.length)).drop rb.first).length = re.last l.length - rb.first := by
    simp only [List.length_drop, List.length_take]; omega
  have L : SxLaws (Sxb.ops .vec) _ _ _ _ := Sxb.laws none
  obtain ⟨s', h, hk⟩ := L.splice_spec (s := sysexBytes l ++ r) (s0 := sysexBytes l ++ r) d rb re
    (l.take rb.first) ((l.take (re.last l.length)).drop rb.first) (l.drop (re.last l.length)) rfl
    (by rw [← hcut]; exact clean_of hr (fun _ h => by cases h))
    (by rw [Sx.spliceBegin_eq, List.length_take]; omega)
    (by rw [← hcut, Sx.spliceEnd_eq, List.length_take, hlen]; omega)
  rw [h, kept_none hk]
  rfl

/-- C16: `set_payload(bytes)` on any accepted message over a growable buffer leaves exactly
`F0 bytes F7`, whatever the message held and whatever the size hint says. -/
theorem C16_set_payload (b : Buf .bytes) (h : Sxb.tryFrom b = .ok b) (d : Src (BitVec 7)) :
    (Sxb.ops .vec).setPayload b d = .ok (sysexBytes d.items) ∧ HoldsBytes (sysexBytes d.items) d.items := by
  refine ⟨?_, holdsBytes_nil _⟩
  obtain ⟨p, rest, rfl, hp⟩ := accepted_raw h
  unfold SxOps.setPayload
  show ((do return (← Sxb.resizeVec (raw p rest) 0, none) : Res (Buf .bytes × Option Nat)) >>= _) = _
  rw [Sxb.resizeVec_zero hp]
  simp only [Res.ok_bind, Res.pure_eq]
  have := bytes_splice_vec [] [] (by simp) d (.included 0) (.excluded 0) (by simp [Bound.first, Bound.last])
    (by simp [Bound.last])
  have e1 : spliced ([] : List (BitVec 7)) (Bound.included 0).first
      ((Bound.excluded 0).last ([] : List (BitVec 7)).length) d.items = d.items := by simp [spliced]
  rw [e1] at this
  exact this

-- C16: a message with rubbish behind it, and a wrong size hint.
example : (Sxb.ops .vec).setPayload [0xF0, 1, 0x99, 0xF7, 0xF7, 0x80] ⟨[5, 6, 7, 8], 1, none⟩ =
    .ok [0xF0, 5, 6, 7, 8, 0xF7] := by decide +kernel

/-! ## C20: `try_set_payload` -/

/-- C20: on any accepted message in a fixed buffer, with an exact size hint,
`try_set_payload` succeeds exactly when `F0 bytes F7` fits, and otherwise reports
`BufferOverflow` and leaves an empty message.  Missing: inexact size hints when bytes of
`0x80` and above lie behind the message, see the violation. -/
theorem C20_bytes_try_set_payload_partial (b : Buf .bytes) (h : Sxb.tryFrom b = .ok b)
    (d : Src (BitVec 7)) (hd : d.upper.getD d.lower = d.items.length) :
    ∃ b' rest, b'.length = b.length ∧
      ((d.items.length + 2 ≤ b.length ∧
          (Sxb.ops .fixed).trySetPayload b d = .ok (b', none) ∧ b' = sysexBytes d.items ++ rest) ∨
       (b.length < d.items.length + 2 ∧
          (Sxb.ops .fixed).trySetPayload b d = .ok (b', some .bufferOverflow) ∧
          b' = sysexBytes [] ++ rest)) := by
  obtain ⟨p, rest, rfl, hp⟩ := accepted_raw h
  have he : d.estimate = d.items.length := by
    rw [← hd]; unfold Src.estimate; cases d.upper <;> rfl
  have key := Sxb.trySetPayload_exact (rest := rest) hp d he
  have hlen := Sxb.raw_length p rest
  by_cases hf : d.items.length ≤ p.length + rest.length
  · obtain ⟨r, e1, e2, _⟩ := key.1 hf
    refine ⟨_, r, ?_, .inl ⟨by omega, e1, raw_eq _ _⟩⟩
    rw [Sxb.raw_length, List.length_map]; omega
  · obtain ⟨r, e1, e2⟩ := key.2 (by omega)
    refine ⟨_, r, ?_, .inr ⟨by omega, e1, raw_eq [] r⟩⟩
    rw [Sxb.raw_length]; simp; omega

example : ∃ rest, (Sxb.ops .fixed).trySetPayload [0xF0, 1, 2, 0xF7, 0xF7, 0xF7] ⟨[5, 6, 7], 3, some 3⟩ =
    .ok (sysexBytes [5, 6, 7] ++ rest, none) := by
  obtain ⟨b', rest, _, h | h⟩ := C20_bytes_try_set_payload_partial [0xF0, 1, 2, 0xF7, 0xF7, 0xF7]
    (by decide +kernel) ⟨[5, 6, 7], 3, some 3⟩ rfl
  · exact ⟨rest, h.2.2 ▸ h.2.1⟩
  · exact absurd h.1 (by decide)

/-- C20: with any size hint, on a message in a fixed buffer with nothing of `0x80` or above
behind it, the same (`insert` at 0 of an empty message). -/
theorem C20_bytes_fresh (r : List (BitVec 8)) (hr : ∀ x ∈ r, x.toNat < 128) (d : Src (BitVec 7)) :
    ∃ b' rest, b'.length = r.length + 2 ∧
      ((d.items.length ≤ r.length ∧
          (Sxb.ops .fixed).trySetPayload (sysexBytes [] ++ r) d = .ok (b', none) ∧
          b' = sysexBytes d.items ++ rest) ∨
       (r.length < d.items.length ∧
          (Sxb.ops .fixed).trySetPayload (sysexBytes [] ++ r) d = .ok (b', some .bufferOverflow) ∧
          b' = sysexBytes [] ++ rest)) := by
  have hlen : (sysexBytes [] ++ r).length = r.length + 2 := by
    rw [List.length_append, sysexBytes_length]; simp; omega
  have hz := Sxb.tryResize_fits (p := []) (rest := r) (by simp) (n := 0)
    (by rw [Sxb.raw_length]; omega) (by simp)
  have hz' : (Sxb.ops .fixed).resize (sysexBytes [] ++ r) 0 = .ok (sysexBytes [] ++ r, none) := by
    rw [← raw_eq]
    exact hz
  have hset : (Sxb.ops .fixed).trySetPayload (sysexBytes [] ++ r) d =
      (Sxb.ops .fixed).trySplice (sysexBytes [] ++ r) d (.included 0) (.excluded 0) := by
    unfold SxOps.trySetPayload
    rw [hz']; rfl
  have L : SxLaws (Sxb.ops .fixed) _ _ _ _ := Sxb.laws (some (r.length + 2))
  have key := L.trySplice_spec (s := sysexBytes [] ++ r) (s0 := sysexBytes [] ++ r) d
    (.included 0) (.excluded 0) [] [] [] rfl
    (clean_of hr (fun n h => by cases h; exact hlen)) rfl rfl (.inr (.inl rfl))
  rw [hset]
  simp only [List.nil_append, List.append_nil] at key
  by_cases hf : d.items.length ≤ r.length
  · obtain ⟨s', e1, e2⟩ := key.1 (by intro c hc; cases hc; show _ ≤ r.length; exact hf)
    obtain ⟨⟨rest, rfl⟩, h2⟩ := kept_some e2
    exact ⟨_, rest, h2, .inl ⟨hf, e1, rfl⟩⟩
  · obtain ⟨s', e1, e2⟩ := key.2 (by intro h; exact hf (by have := h _ rfl; simpa using this))
    obtain ⟨⟨rest, rfl⟩, h2⟩ := kept_some e2
    exact ⟨_, rest, h2, .inr ⟨by omega, e1, rfl⟩⟩

-- C20: the buffer of six bytes holds four but not five payload bytes.
example : (Sxb.ops .fixed).trySetPayload [0xF0, 1, 2, 0xF7, 0xF7, 0xF7] ⟨[5, 6, 7, 8], 4, some 4⟩ =
      .ok ([0xF0, 5, 6, 7, 8, 0xF7], none) ∧
    (Sxb.ops .fixed).trySetPayload [0xF0, 1, 2, 0xF7, 0xF7, 0xF7] ⟨[5, 6, 7, 8, 9], 5, some 5⟩ =
      .ok ([0xF0, 0xF7, 6, 7, 8, 0xF7], some .bufferOverflow) := by decide +kernel

/-- C20, C22 fail for stale `F7` bytes behind the message and a size hint that is not
exact: the call panics. -/
theorem C20_bytes_stale_terminator_violation :
    ∃ b : Buf .bytes, Sxb.tryFrom b = .ok b ∧
      (Sxb.ops .fixed).trySetPayload b ⟨[1], 3, some 3⟩ = .panic :=
  ⟨[0xF0, 1, 0xF7, 0xF7, 0, 0, 0, 0], by decide +kernel⟩

/-! ## C21, C22: splice -/

/-- C21: on a growable buffer, `splice_payload` is `Vec::splice` for every size hint, if
nothing of `0x80` or above lies behind the message (in particular, if nothing does: the
case for every message built by the library). -/
theorem C21_bytes_splice_partial (b : Buf .bytes) (l : List (BitVec 7)) (r : List (BitVec 8))
    (hb : b = sysexBytes l ++ r) (hr : ∀ x ∈ r, x.toNat < 128) (d : Src (BitVec 7)) :
    (∀ rb re : Bound, rb.first ≤ re.last l.length → re.last l.length ≤ l.length →
      (Sxb.ops .vec).splice b d rb re =
        .ok (sysexBytes (spliced l rb.first (re.last l.length) d.items))) ∧
    (∀ i ≤ l.length, (Sxb.ops .vec).insert b d i =
      .ok (sysexBytes (l.take i ++ d.items ++ l.drop i))) ∧
    (Sxb.ops .vec).append b d = .ok (sysexBytes (l ++ d.items)) ∧
    (∀ v, (Sxb.ops .vec).appendByte b v = .ok (sysexBytes (l ++ [v]))) := by
  subst hb
  have hs := fun d => bytes_splice_vec l r hr d
  have hi : ∀ d, ∀ i ≤ l.length, (Sxb.ops .vec).insert (sysexBytes l ++ r) d i =
      .ok (sysexBytes (l.take i ++ d.items ++ l.drop i)) := by
    intro d i hi
    exact hs d (.included i) (.excluded i) (Nat.le_refl i) hi
  have hps : (Sxb.ops .vec).payloadSize (sysexBytes l ++ r) = .ok l.length := (holdsBytes l r).size
  have ha : ∀ d, (Sxb.ops .vec).insert (sysexBytes l ++ r) d l.length = .ok (sysexBytes (l ++ d.items)) := by
    intro d
    rw [hi d l.length (Nat.le_refl _)]
    simp
  refine ⟨hs d, hi d, ?_, ?_⟩
  · unfold SxOps.append
    rw [hps]; exact ha d
  · intro v
    unfold SxOps.appendByte
    rw [hps]; exact ha ⟨[v], 1, some 1⟩

example : (Sxb.ops .vec).splice [0xF0, 1, 2, 3, 4, 0xF7, 9] ⟨[5, 6, 7], 0, none⟩ (.included 1) (.included 2) =
    .ok [0xF0, 1, 5, 6, 7, 4, 0xF7] :=
  (C21_bytes_splice_partial _ [1, 2, 3, 4] [9] rfl (by decide) ⟨[5, 6, 7], 0, none⟩).1 (.included 1)
    (.included 2) (by decide) (by decide)

/-- C22: on a fixed buffer with nothing of `0x80` or above behind the message,
`try_splice_payload` succeeds exactly when the result fits, with `Vec::splice` semantics,
and otherwise reports `BufferOverflow` and leaves an empty message. -/
theorem C22_bytes_try_splice_partial (b : Buf .bytes) (l : List (BitVec 7)) (r : List (BitVec 8))
    (hb : b = sysexBytes l ++ r) (hr : ∀ x ∈ r, x.toNat < 128) (d : Src (BitVec 7)) (rb re : Bound)
    (h1 : rb.first ≤ re.last l.length) (h2 : re.last l.length ≤ l.length)
    (hh : rb.first = re.last l.length ∨ d.items.length ≤ d.upper.getD d.lower ∨
      (re.last l.length - rb.first ≤ d.upper.getD d.lower ∧
        l.length - (re.last l.length - rb.first) + 2 * d.items.length + 2 ≤ b.length)) :
    ∃ b' rest, b'.length = b.length ∧
      (((spliced l rb.first (re.last l.length) d.items).length + 2 ≤ b.length ∧
          (Sxb.ops .fixed).trySplice b d rb re = .ok (b', none) ∧
          b' = sysexBytes (spliced l rb.first (re.last l.length) d.items) ++ rest) ∨
       (b.length < (spliced l rb.first (re.last l.length) d.items).length + 2 ∧
          (Sxb.ops .fixed).trySplice b d rb re = .ok (b', some .bufferOverflow) ∧
          b' = sysexBytes [] ++ rest)) := by
  subst hb
  have hcut := Sx.cut l rb.first (re.last l.length) h1
  have hlen : ((l.take (re.last l.length)).drop rb.first).length = re.last l.length - rb.first := by
    simp only [List.length_drop, List.length_take]; omega
  have he : d.upper.getD d.lower = d.estimate := by
    unfold Src.estimate
    cases d.upper <;> rfl
  have hbl : (sysexBytes l ++ r).length = l.length + 2 + r.length := by
    rw [List.length_append, sysexBytes_length]
  have L : SxLaws (Sxb.ops .fixed) _ _ _ _ := Sxb.laws (some (sysexBytes l ++ r).length)
  have key := L.trySplice_spec (s := sysexBytes l ++ r) (s0 := sysexBytes l ++ r) d rb re
    (l.take rb.first) ((l.take (re.last l.length)).drop rb.first) (l.drop (re.last l.length)) rfl
    (by rw [← hcut]; exact clean_of hr (fun _ h => Option.some.inj h))
    (by rw [Sx.spliceBegin_eq, List.length_take]; omega)
    (by rw [← hcut, Sx.spliceEnd_eq, List.length_take, hlen]; omega)
    (by
      rcases hh with h | h | h
      · exact .inr (.inl (List.eq_nil_of_length_eq_zero (by rw [hlen]; omega)))
      · exact .inr (.inr (.inl (by rw [← he]; exact h)))
      · refine .inr (.inr (.inr ⟨.inl (by rw [hlen, ← he]; exact h.1), ?_⟩))
        intro c hc
        cases hc
        show _ ≤ (sysexBytes l ++ r).length - 2
        rw [List.length_take, List.length_drop]
        omega)
  by_cases hf : (spliced l rb.first (re.last l.length) d.items).length + 2 ≤ (sysexBytes l ++ r).length
  · obtain ⟨s', e1, e2⟩ := key.1 (by
      intro c hc
      cases hc
      show (spliced l rb.first (re.last l.length) d.items).length ≤ (sysexBytes l ++ r).length - 2
      omega)
    obtain ⟨⟨rest, rfl⟩, h2⟩ := kept_some e2
    exact ⟨_, rest, h2, .inl ⟨hf, e1, rfl⟩⟩
  · obtain ⟨s', e1, e2⟩ := key.2 (by
      intro h
      have : (spliced l rb.first (re.last l.length) d.items).length ≤ _ := h _ rfl
      simp only at this
      omega)
    obtain ⟨⟨rest, rfl⟩, h2⟩ := kept_some e2
    exact ⟨_, rest, h2, .inr ⟨by omega, e1, rfl⟩⟩

-- C21, C22: two bytes replaced by three.
example : (Sxb.ops .vec).splice [0xF0, 1, 2, 3, 4, 0xF7] ⟨[5, 6, 7], 0, none⟩ (.included 1) (.included 2) =
      .ok [0xF0, 1, 5, 6, 7, 4, 0xF7] ∧
    (Sxb.ops .fixed).trySplice [0xF0, 1, 2, 3, 4, 0xF7, 0, 0] ⟨[5, 6, 7], 3, some 3⟩ (.included 1) (.included 2) =
      .ok ([0xF0, 1, 5, 6, 7, 4, 0xF7, 0], none) := by decide +kernel

/-- C22 fails for a stale `F7` behind the message.  Shrinking a message by two bytes or
more leaves one: here a message of four bytes is cut to two, and inserting three bytes
afterwards loses payload although the call succeeds. -/
theorem C22_bytes_stale_terminator_violation :
    ∃ b0 b b' : Buf .bytes, Sxb.tryFrom b0 = .ok b0 ∧
      (Sxb.ops .fixed).trySplice b0 ⟨[], 0, some 0⟩ (.included 2) (.excluded 4) = .ok (b, none) ∧
      Sxb.payloadList b = .ok [1, 2] ∧
      (Sxb.ops .fixed).trySplice b ⟨[1, 2, 3], 3, some 3⟩ (.included 0) (.excluded 0) = .ok (b', none) ∧
      Sxb.payloadList b' = .ok [1, 2, 3, 1, 0] :=
  ⟨[0xF0, 1, 2, 3, 4, 0xF7, 0, 0, 0], [0xF0, 1, 2, 0xF7, 4, 0xF7, 0, 0, 0],
    [0xF0, 1, 2, 3, 1, 0, 0xF7, 0, 0], by decide +kernel⟩

/-! ## C24: the iterator -/

theorem bytes_next (l : List (BitVec 7)) (i : Nat) :
    ∃ j, Sxb.next ⟨l.map e, i⟩ = .ok (l[i]?, ⟨l.map e, j⟩) ∧
      ((i < l.length ∧ j = i + 1) ∨ (l.length ≤ i ∧ j = i)) := by
  unfold Sxb.next
  rcases Nat.lt_or_ge i l.length with h | h
  · refine ⟨i + 1, ?_, .inl ⟨h, rfl⟩⟩
    rw [List.getElem?_map, List.getElem?_eq_getElem h]
    simp only [Option.map_some, Sxb.u7New_e, Res.ok_bind, Res.pure_eq]
  · refine ⟨i, ?_, .inr ⟨h, rfl⟩⟩
    rw [List.getElem?_map, List.getElem?_eq_none h]
    rfl

/-- C24: whatever the interleaving of `next` and `nth` on the payload of a message, they
return the items that the same calls on the list return; and `len()` afterwards is the
number of items left unless an `nth(n)` was called with fewer than `n` items left. -/
theorem C24_bytes_iterator_partial (b : Buf .bytes) (l : List (BitVec 7)) (rest : List (BitVec 8))
    (hb : b = sysexBytes l ++ rest) (cs : List ItCall) :
    ∃ it it', Sxb.payload b = .ok it ∧
      ItCall.execBytes cs it = .ok ((ItCall.items cs l).1, it') ∧
      (ItCall.Within cs l → Sxb.len it' = .ok (ItCall.items cs l).2.length) := by
  have key : ∀ (cs : List ItCall) (i : Nat), ∃ j,
      ItCall.execBytes cs ⟨l.map e, i⟩ = .ok ((ItCall.items cs (l.drop i)).1, ⟨l.map e, j⟩) ∧
      (i ≤ l.length → ItCall.Within cs (l.drop i) →
        j ≤ l.length ∧ (ItCall.items cs (l.drop i)).2 = l.drop j) := by
    intro cs
    induction cs with
    | nil => intro i; exact ⟨i, rfl, fun h _ => ⟨h, rfl⟩⟩
    | cons c cs ih =>
      intro i
      have step : ∀ n : Nat, ∃ j, Sxb.next ⟨l.map e, i + n⟩ = .ok ((l.drop i)[n]?, ⟨l.map e, j⟩) ∧
          l.drop j = l.drop (i + n + 1) ∧ (i + n ≤ l.length → j ≤ l.length) := by
        intro n
        obtain ⟨j, h1, h2⟩ := bytes_next l (i + n)
        refine ⟨j, ?_, ?_, ?_⟩
        · rw [h1, List.getElem?_drop]
        · rcases h2 with ⟨_, rfl⟩ | ⟨h, rfl⟩
          · rfl
          · rw [List.drop_eq_nil_of_le h, List.drop_eq_nil_of_le (by omega)]
        · intro h; omega
      cases c with
      | next =>
        obtain ⟨j, h1, h2, h3⟩ := step 0
        obtain ⟨j', h4, h5⟩ := ih j
        have ht : (l.drop i).tail = l.drop j := by rw [h2, List.tail_drop]
        have hh : (l.drop i).head? = (l.drop i)[0]? := List.head?_eq_getElem?
        refine ⟨j', ?_, ?_⟩
        · show (Sxb.next ⟨l.map e, i⟩ >>= _) = _
          rw [Nat.add_zero] at h1
          rw [h1]
          simp only [Res.ok_bind]
          rw [h4]
          simp only [Res.ok_bind, Res.pure_eq, ItCall.items, ItCall.apply, ht, hh]
        · intro hi hw
          have hw' : ItCall.Within cs (l.drop i).tail := hw
          rw [ht] at hw'
          obtain ⟨h6, h7⟩ := h5 (h3 hi) hw'
          refine ⟨h6, ?_⟩
          simp only [ItCall.items, ItCall.apply, ht]
          exact h7
      | nth n =>
        obtain ⟨j, h1, h2, h3⟩ := step n
        obtain ⟨j', h4, h5⟩ := ih j
        have ht : (l.drop i).drop (n + 1) = l.drop j := by
          rw [h2, List.drop_drop]; congr 1
        refine ⟨j', ?_, ?_⟩
        · show (Sxb.nth n ⟨l.map e, i⟩ >>= _) = _
          unfold Sxb.nth
          simp only
          rw [h1]
          simp only [Res.ok_bind]
          rw [h4]
          simp only [Res.ok_bind, Res.pure_eq, ItCall.items, ItCall.apply, ht]
        · intro hi hw
          obtain ⟨hw0, hw'⟩ := hw
          rw [ht] at hw'
          rw [List.length_drop] at hw0
          obtain ⟨h6, h7⟩ := h5 (h3 (by omega)) hw'
          refine ⟨h6, ?_⟩
          simp only [ItCall.items, ItCall.apply, ht]
          exact h7
  subst hb
  obtain ⟨j, h1, h2⟩ := key cs 0
  rw [List.drop_zero] at h1 h2
  refine ⟨⟨l.map e, 0⟩, ⟨l.map e, j⟩, ?_, h1, ?_⟩
  · rw [← raw_eq, Sxb.payload_raw (Sxb.end_notin l)]
  · intro hw
    obtain ⟨h3, h4⟩ := h2 (Nat.zero_le _) hw
    unfold Sxb.len
    rw [usub_ok (by rw [List.length_map]; exact h3), h4, List.length_map, List.length_drop]

-- C24: four calls.
example : ItCall.items [.next, .nth 1, .next, .next] [(10 : BitVec 7), 11, 12, 13] =
      ([some 10, some 12, some 13, none], []) ∧
    ItCall.Within [.next, .nth 1, .next, .next] [(10 : BitVec 7), 11, 12, 13] := by
  refine ⟨by decide, ?_⟩
  simp [ItCall.Within]

/-- C24 fails: `size_hint()` of a byte payload says 0 whatever is left, and `len()` panics
after `nth` went past the end. -/
theorem C24_bytes_violation :
    (∃ (b : Buf .bytes) (it : Sxb.It), Sxb.tryFrom b = .ok b ∧ Sxb.payload b = .ok it ∧
      Sxb.sizeHint it = (0, some 0) ∧ Sxb.len it = .ok 3) ∧
    (∃ (b : Buf .bytes) (it it' : Sxb.It), Sxb.tryFrom b = .ok b ∧ Sxb.payload b = .ok it ∧
      ItCall.execBytes [.nth 4] it = .ok ([none], it') ∧ Sxb.len it' = .panic) :=
  ⟨⟨[0xF0, 1, 2, 3, 0xF7], ⟨[1, 2, 3], 0⟩, by decide +kernel⟩,
   ⟨[0xF0, 1, 2, 3, 0xF7], ⟨[1, 2, 3], 0⟩, ⟨[1, 2, 3], 4⟩, by decide +kernel⟩⟩

/-! ## C45: single bytes -/

/-- C45: `set_payload_byte(i, v)` changes exactly byte `i` of the payload. -/
theorem C45_bytes_set_payload_byte (b : Buf .bytes) (l : List (BitVec 7)) (rest : List (BitVec 8))
    (hb : b = sysexBytes l ++ rest) (i : Nat) (hi : i < l.length) (v : BitVec 7) :
    Sxb.setByte b v i = .ok (sysexBytes (l.set i v) ++ rest) := by
  subst hb
  have hw : ∀ w : BitVec 7, U8.setSeptet (e w) v = e v := by
    intro w
    unfold U8.setSeptet e
    have key : (w.setWidth 8 &&& ~~~0x7F#8) = 0#8 := by
      apply BitVec.eq_of_getLsbD_eq
      intro j hj
      rw [BitVec.getLsbD_and, BitVec.getLsbD_setWidth, BitVec.getLsbD_zero]
      by_cases h7 : j < 7
      · have : j = 0 ∨ j = 1 ∨ j = 2 ∨ j = 3 ∨ j = 4 ∨ j = 5 ∨ j = 6 := by omega
        rcases this with rfl | rfl | rfl | rfl | rfl | rfl | rfl <;> simp <;> decide
      · rw [BitVec.getLsbD_of_ge w j (by omega)]
        simp
    rw [key]
    simp
  unfold Sxb.setByte modifyAt
  rw [← raw_eq, ← raw_eq]
  have hget : (raw (l.map e) rest)[i + 1]? = some (e l[i]) := by
    unfold raw
    rw [List.getElem?_cons_succ, List.getElem?_append_left (by rw [List.length_map]; exact hi),
      List.getElem?_map, List.getElem?_eq_getElem hi]
    rfl
  rw [hget]
  simp only [hw]
  congr 1
  unfold raw
  rw [List.set_cons_succ, List.set_append_left _ _ (by rw [List.length_map]; exact hi), List.map_set]

-- C45
example : Sxb.setByte [0xF0, 1, 2, 3, 0xF7] 0x55 1 = .ok [0xF0, 1, 0x55, 3, 0xF7] := by decide +kernel

/-- C45: one past the end, `set_payload_byte` overwrites the terminator, and the message is
no longer one. -/
theorem C45_bytes_terminator_violation :
    ∃ b b' : Buf .bytes, Sxb.tryFrom b = .ok b ∧ Sxb.payloadSize b = .ok 3 ∧
      Sxb.setByte b 0 3 = .ok b' ∧ Sxb.data b' = .panic ∧ Sxb.tryFrom b' = .err .invalidData :=
  ⟨[0xF0, 1, 2, 3, 0xF7], [0xF0, 1, 2, 3, 0x80], by decide +kernel⟩

/-- C45: with an index behind the payload `set_payload_byte` sets the low seven bits of the
terminator or of a byte behind it, or panics where the buffer ends. -/
theorem C45_bytes_past_end_exactly (b : Buf .bytes) (l : List (BitVec 7)) (rest : List (BitVec 8))
    (hb : b = sysexBytes l ++ rest) (n : Nat) (v : BitVec 7) :
    (∀ w : BitVec 8, (0xF7#8 :: rest)[n]? = some w → ∃ w' : BitVec 8,
      w'.toNat = w.toNat / 128 * 128 + v.toNat ∧
      Sxb.setByte b v (l.length + n) =
        .ok (0xF0#8 :: (l.map fun v => v.setWidth 8) ++ (0xF7#8 :: rest).set n w')) ∧
    (rest.length < n → Sxb.setByte b v (l.length + n) = .panic) := by
  subst hb
  have hsplit : sysexBytes l ++ rest = (0xF0#8 :: (l.map fun v => v.setWidth 8)) ++ (0xF7#8 :: rest) := by
    simp [sysexBytes]
  have hlen : (0xF0#8 :: (l.map fun v => v.setWidth 8)).length = l.length + 1 := by simp
  have e : Sxb.setByte (sysexBytes l ++ rest) v (l.length + n) =
      modifyAt (0xF7#8 :: rest) n (U8.setSeptet · v) >>= fun c =>
        .ok (0xF0#8 :: (l.map fun v => v.setWidth 8) ++ c) := by
    unfold Sxb.setByte
    rw [hsplit, show l.length + n + 1 = (0xF0#8 :: (l.map fun v => v.setWidth 8)).length + n by omega,
      modifyAt_append]
  rw [e]
  constructor
  · intro w hw
    refine ⟨_, setSeptet_toNat w v, ?_⟩
    unfold modifyAt
    rw [hw]; rfl
  · intro h
    unfold modifyAt
    rw [List.getElem?_eq_none (by simp; omega)]; rfl

-- C45
example : Sxb.setByte [0xF0, 1, 2, 0xF7, 0x93] 0x55 2 = .ok [0xF0, 1, 2, 0xD5, 0x93] ∧
    Sxb.setByte [0xF0, 1, 2, 0xF7, 0x93] 0x55 3 = .ok [0xF0, 1, 2, 0xF7, 0xD5] ∧
    Sxb.setByte [0xF0, 1, 2, 0xF7, 0x93] 0x55 4 = .panic := by decide +kernel
/-! ## C47: histories -/

/-- C47 for byte messages over growable buffers: any sequence of in-range calls on a fresh
message leaves exactly `F0`, the bytes that the same calls make of a plain list, and
`F7`. -/
theorem C47_bytes_history (cs : List (SxCall .s7)) (hr : SxCall.AllInRange cs (0, [])) :
    ∃ b, Sxb.newVec = .ok b ∧
      SxCall.execAllBytes cs b = .ok (sysexBytes (SxCall.applyAll cs (0, [])).2) ∧
      HoldsBytes (sysexBytes (SxCall.applyAll cs (0, [])).2) (SxCall.applyAll cs (0, [])).2 ∧
      Sxb.tryFrom (sysexBytes (SxCall.applyAll cs (0, [])).2) =
        .ok (sysexBytes (SxCall.applyAll cs (0, [])).2) := by
  have key : ∀ (cs : List (SxCall .s7)) (s : BitVec 4 × List (BitVec 7)),
      SxCall.AllInRange (k := .s7) cs s → SxCall.execAllBytes cs (sysexBytes s.2) =
        .ok (sysexBytes (SxCall.applyAll (k := .s7) cs s).2) := by
    intro cs
    induction cs with
    | nil => intro s _; rfl
    | cons c cs ih =>
      intro s hr
      have step : c.execBytes (sysexBytes s.2) = .ok (sysexBytes (SxCall.apply (k := .s7) s c).2) := by
        have h21 := fun d => C21_bytes_splice_partial (sysexBytes s.2) s.2 [] (by rw [List.append_nil])
          (by simp) d
        have hacc := sysexBytes_accepted s.2 []
        rw [List.append_nil] at hacc
        cases c with
        | setGroup g => rfl
        | setPayload d => exact (C16_set_payload _ hacc d).1
        | splicePayload d rb re => exact (h21 d).1 rb re hr.1.1 hr.1.2
        | insertPayload d i => exact (h21 d).2.1 i hr.1
        | appendPayload d => exact (h21 d).2.2.1
        | appendByte v => exact (h21 ⟨[], 0, none⟩).2.2.2 v
        | setPayloadByte i v =>
          have := C45_bytes_set_payload_byte (sysexBytes s.2) s.2 [] (by rw [List.append_nil]) i hr.1 v
          rw [List.append_nil] at this
          exact this
      show (c.execBytes (sysexBytes s.2) >>= fun b => SxCall.execAllBytes cs b) = _
      rw [step]
      exact ih _ hr.2
  have hacc := sysexBytes_accepted (SxCall.applyAll (k := .s7) cs (0, [])).2 []
  rw [List.append_nil] at hacc
  exact ⟨_, (C08_sysex7_bytes [] 0).1, key cs (0, []) hr, holdsBytes_nil _, hacc⟩

example : SxCall.execAllBytes [.setPayload ⟨[1, 2, 3], 0, none⟩, .appendByte 9] [0xF0, 0xF7] =
    .ok [0xF0, 1, 2, 3, 9, 0xF7] := by
  obtain ⟨b, h1, h2, _⟩ := C47_bytes_history [.setPayload ⟨[1, 2, 3], 0, none⟩, .appendByte 9]
    ⟨trivial, trivial, trivial⟩
  cases h1
  exact h2

/-! ## C25: conversions -/

theorem bytes_source (l : List (BitVec 7)) (rest : List (BitVec 8)) :
    Sxb.source (sysexBytes l ++ rest) = .ok ⟨l, 0, some 0⟩ := by
  unfold Sxb.source
  have h := (holdsBytes l rest).payload
  rw [← raw_eq] at h ⊢
  rw [Sxb.payload_raw (Sxb.end_notin l), h]
  rfl

theorem ump_source (b : Buf .ump) (g : Nat) (sizes : List Nat)
    (M : sysex7Layout.IsMessage b g sizes) (l : List (BitVec 7)) (hl : Sx.s7.payloadList b = .ok l) :
    Sxb.sourceUmp b = .ok ⟨l, l.length, some l.length⟩ := by
  obtain ⟨it, l', h1, h2, h3, _⟩ := C24_next_only .s7 b g sizes M 0
  rw [hl] at h2
  cases h2
  unfold Sxb.sourceUmp
  rw [h1, hl]
  simp only [Res.ok_bind, Res.pure_eq, Sx.sizeHint]
  rw [show it.cache = List.length l from h3]

theorem convert_zero {n : Nat} (hn : 2 ≤ n) :
    Sxb.convertToUmp (List.replicate n 0) = .ok ((List.replicate n 0).set 0 0x30000000) := by
  unfold Sxb.convertToUmp modifyAt
  rw [List.getElem?_replicate, if_pos (by omega)]
  simp only [Res.ok_bind, Res.pure_eq]
  have hw : U32.setNibble (0 : BitVec 32) 0 Sx.s7.typ = 0x30000000 := by decide
  rw [hw]
  congr 1
  apply List.ext_getElem?
  intro i
  rw [Sx.setGroup_word]
  split
  · rw [List.getElem?_set]
    simp only [List.length_replicate]
    by_cases h0 : 0 = i
    · rw [if_pos h0, if_pos (by omega)]; decide
    · rw [if_neg h0, List.getElem?_replicate]
      split
      · decide
      · rfl
  · rfl

/-- C25: converting a byte message with the payload `l` to a growable UMP buffer gives a
UMP message of group 0 with the payload `l` and nothing behind it. -/
theorem C25_bytes_to_ump (dbg : Bool) (b : Buf .bytes) (h : Sxb.tryFrom b = .ok b)
    (l : List (BitVec 7)) (hl : Sxb.payloadList b = .ok l) :
    ∃ b', Sxb.fromBytes dbg b = .ok b' ∧ Sx.s7.Holds b' 0 l ∧ Sx.s7.data b' = .ok b' := by
  obtain ⟨rest, rfl⟩ := accepted_payload h hl
  unfold Sxb.fromBytes
  rw [show vecResize ([] : List (BitVec 32)) 2 = List.replicate 2 0 from rfl, convert_zero (by omega),
    bytes_source]
  simp only [Res.ok_bind]
  exact setPayload_holds .s7 dbg (g := 0) (by decide) ⟨l, 0, some 0⟩

example : ∃ b', Sxb.fromBytes true [0xF0, 1, 2, 3, 4, 5, 6, 7, 8, 0xF7, 0x90] = .ok b' ∧
    Sx.s7.Holds b' 0 [1, 2, 3, 4, 5, 6, 7, 8] ∧ Sx.s7.data b' = .ok b' :=
  C25_bytes_to_ump true _ (by decide +kernel) _ (by decide +kernel)

/-- C25: converting into an array of `n` words succeeds exactly when the packets fit. -/
theorem C25_bytes_to_ump_array (dbg : Bool) (n : Nat) (b : Buf .bytes) (h : Sxb.tryFrom b = .ok b)
    (l : List (BitVec 7)) (hl : Sxb.payloadList b = .ok l) :
    (sysex7Layout.wireLength l.length ≤ 4 * n → ∃ b', Sxb.tryFromBytes dbg n b = .ok b' ∧
      Sx.s7.Holds b' 0 l ∧ b'.length = n) ∧
    (4 * n < sysex7Layout.wireLength l.length → Sxb.tryFromBytes dbg n b = .err .bufferOverflow) := by
  obtain ⟨rest, rfl⟩ := accepted_payload h hl
  have hmin : 8 ≤ sysex7Layout.wireLength l.length := by
    have := Sx.wireLength_eq .s7 l.length
    rw [show Sx.s7.layout = sysex7Layout from rfl] at this
    rw [this]
    have hc : 1 ≤ Sx.s7.count l.length := by
      unfold Sx.count
      split
      · omega
      · next h => exact (Nat.le_div_iff_mul_le (by decide)).mpr (by simp only [Sx.cap]; omega)
    simp only [Sx.stride]
    omega
  unfold Sxb.tryFromBytes fixedTryResize
  rw [List.length_replicate]
  by_cases hn : 2 > n
  · rw [if_pos hn]
    exact ⟨fun h => by omega, fun _ => rfl⟩
  · rw [if_neg hn]
    simp only [Res.ok_bind]
    rw [convert_zero (by omega), bytes_source]
    simp only [Res.ok_bind]
    have hlen : ((List.replicate n (0 : BitVec 32)).set 0 0x30000000).length = n := by simp
    have h0 : ((List.replicate n (0 : BitVec 32)).set 0 0x30000000)[0]? = some 0x30000000 := by
      rw [List.getElem?_set]; simp; omega
    have hz : ∀ i, 0 < i → i < ((List.replicate n (0 : BitVec 32)).set 0 0x30000000).length →
        ((List.replicate n (0 : BitVec 32)).set 0 0x30000000)[i]? = some 0 := by
      intro i h1 h2
      rw [hlen] at h2
      rw [List.getElem?_set, if_neg (by omega), List.getElem?_replicate, if_pos h2]
    have hfw : Sx.s7.freshWord = 0x30000000 := by decide
    have hg : Sx.group ((List.replicate n (0 : BitVec 32)).set 0 0x30000000) = .ok 0 := by
      unfold Sx.group at'
      rw [h0]; rfl
    obtain ⟨b', hb', hc⟩ := C20_try_set_payload .s7 dbg _ 0
      (by rw [hlen]; show 2 ≤ n; omega) hg
      (fun _ => Sx.tidyFrom_iff.mp ((Sx.fresh_tidy .s7 (by rw [hfw]; exact h0) hz).from _)) ⟨l, 0, some 0⟩
    rw [hlen] at hb' hc
    rcases hc with ⟨c1, c2, c3⟩ | ⟨c1, c2, c3⟩
    · rw [c2]
      exact ⟨fun _ => ⟨b', rfl, c3, hb'⟩, fun h => absurd c1 (by show ¬ sysex7Layout.wireLength l.length ≤ _; omega)⟩
    · rw [c2]
      exact ⟨fun h => absurd c1 (by show ¬ _ < sysex7Layout.wireLength l.length; omega), fun _ => rfl⟩

example : Sxb.tryFromBytes true 3 [0xF0, 1, 2, 3, 4, 5, 6, 7, 8, 0xF7] = .err .bufferOverflow :=
  (C25_bytes_to_ump_array true 3 _ (by decide +kernel) [1, 2, 3, 4, 5, 6, 7, 8] (by decide +kernel)).2
    (by decide +kernel)

/-- C25: converting a UMP message to bytes, into a growable buffer: exactly `F0`, the
payload, `F7`. -/
theorem C25_ump_to_bytes (b : Buf .ump) (g : Nat) (sizes : List Nat)
    (M : sysex7Layout.IsMessage b g sizes) (l : List (BitVec 7)) (hl : Sx.s7.payloadList b = .ok l) :
    Sxb.fromUmp b = .ok (sysexBytes l) := by
  unfold Sxb.fromUmp
  rw [ump_source b g sizes M l hl]
  have hi : Sxb.init (vecResize ([] : List (BitVec 8)) 2) = .ok (sysexBytes []) := rfl
  rw [hi]
  simp only [Res.ok_bind]
  have hacc := sysexBytes_accepted [] []
  rw [List.append_nil] at hacc
  exact (C16_set_payload _ hacc _).1

example : Sxb.fromUmp [0x30160001, 0x02030405, 0x30320607, 0] = .ok (sysexBytes [0, 1, 2, 3, 4, 5, 6, 7]) :=
  C25_ump_to_bytes _ 0 [6, 2] sampleSysex7 _ (by decide +kernel)

/-- C25: converting a UMP message into an array of `n` bytes succeeds exactly when `F0`,
the payload and `F7` fit. -/
theorem C25_ump_to_bytes_array (n : Nat) (b : Buf .ump) (g : Nat) (sizes : List Nat)
    (M : sysex7Layout.IsMessage b g sizes) (l : List (BitVec 7)) (hl : Sx.s7.payloadList b = .ok l) :
    (l.length + 2 ≤ n → ∃ rest, Sxb.tryFromUmp n b = .ok (sysexBytes l ++ rest) ∧
      (sysexBytes l ++ rest).length = n) ∧
    (n < l.length + 2 → Sxb.tryFromUmp n b = .err .bufferOverflow) := by
  unfold Sxb.tryFromUmp
  rw [ump_source b g sizes M l hl]
  by_cases hn : n < 2
  · have := (C08_sysex7_bytes [] n).2.2.2.2.1 hn
    have hf : fixedTryResize (List.replicate n (0 : BitVec 8)) 2 = .err .bufferOverflow := by
      unfold fixedTryResize
      rw [if_pos (by rw [List.length_replicate]; exact hn)]
    rw [hf]
    exact ⟨fun h => by omega, fun _ => rfl⟩
  · have hf : fixedTryResize (List.replicate n (0 : BitVec 8)) 2 = .ok (List.replicate n 0) := by
      unfold fixedTryResize
      rw [if_neg (by rw [List.length_replicate]; omega)]
    have hnew := ((C08_sysex7_bytes [] n).2.2.2.2.2 (by omega)).1
    have hin : Sxb.init (List.replicate n 0) = .ok (sysexBytes [] ++ List.replicate (n - 2) 0) := by
      unfold Sxb.tryNew at hnew
      rw [hf] at hnew
      exact hnew
    rw [hf]
    simp only [Res.ok_bind]
    rw [hin]
    simp only [Res.ok_bind]
    obtain ⟨b', rest, h1, h2⟩ := C20_bytes_fresh (List.replicate (n - 2) 0)
      (by intro x hx; rw [List.eq_of_mem_replicate hx]; decide) ⟨l, l.length, some l.length⟩
    rw [List.length_replicate] at h1 h2
    rcases h2 with ⟨c1, c2, c3⟩ | ⟨c1, c2, c3⟩
    · rw [c2]
      refine ⟨fun _ => ⟨rest, by rw [c3]; rfl, by rw [← c3, h1]; omega⟩, fun h => ?_⟩
      have : l.length ≤ n - 2 := c1
      omega
    · rw [c2]
      have : n - 2 < l.length := c1
      exact ⟨fun h => by omega, fun _ => rfl⟩

example : Sxb.tryFromUmp 9 [0x30160001, 0x02030405, 0x30320607, 0] = .err .bufferOverflow :=
  (C25_ump_to_bytes_array 9 _ 0 [6, 2] sampleSysex7 [0, 1, 2, 3, 4, 5, 6, 7] (by decide +kernel)).2
    (by decide)

/-- C25: there and back again, from bytes: the message without what was behind it. -/
theorem C25_bytes_roundtrip (dbg : Bool) (b : Buf .bytes) (h : Sxb.tryFrom b = .ok b)
    (l : List (BitVec 7)) (hl : Sxb.payloadList b = .ok l) :
    ∃ u, Sxb.fromBytes dbg b = .ok u ∧ Sxb.fromUmp u = Sxb.data b := by
  obtain ⟨rest, rfl⟩ := accepted_payload h hl
  obtain ⟨u, e1, H, hd⟩ := C25_bytes_to_ump dbg _ h l hl
  obtain ⟨d, w1, _, w3, _⟩ := H.wire
  rw [hd] at w1
  cases w1
  refine ⟨u, e1, ?_⟩
  rw [C25_ump_to_bytes u _ _ w3 l H.payload, (holdsBytes l rest).data]

example : ∃ u, Sxb.fromBytes true [0xF0, 1, 2, 3, 0xF7, 0x90] = .ok u ∧
    Sxb.fromUmp u = Sxb.data [0xF0, 1, 2, 3, 0xF7, 0x90] :=
  C25_bytes_roundtrip true _ (by decide +kernel) [1, 2, 3] (by decide +kernel)

/-- C25: there and back again, from UMP: same payload, group 0, packets filled. -/
theorem C25_ump_roundtrip (dbg : Bool) (b : Buf .ump) (g : Nat) (sizes : List Nat)
    (M : sysex7Layout.IsMessage b g sizes) (l : List (BitVec 7)) (hl : Sx.s7.payloadList b = .ok l) :
    ∃ c u, Sxb.fromUmp b = .ok c ∧ Sxb.fromBytes dbg c = .ok u ∧ Sx.s7.Holds u 0 l := by
  have hacc := sysexBytes_accepted l []
  rw [List.append_nil] at hacc
  obtain ⟨u, e1, H, _⟩ := C25_bytes_to_ump dbg (sysexBytes l) hacc l (holdsBytes_nil l).payload
  exact ⟨_, u, C25_ump_to_bytes b g sizes M l hl, e1, H⟩

-- C25: eight bytes.
example : Sxb.fromBytes true [0xF0, 1, 2, 3, 4, 5, 6, 7, 8, 0xF7, 0x90] =
      .ok [0x30160102, 0x03040506, 0x30320708, 0] ∧
    Sxb.fromUmp [0x35160102, 0x03040506, 0x35320708, 0] =
      .ok [0xF0, 1, 2, 3, 4, 5, 6, 7, 8, 0xF7] ∧
    Sxb.tryFromBytes true 3 [0xF0, 1, 2, 3, 4, 5, 6, 7, 8, 0xF7] = .err .bufferOverflow ∧
    Sxb.tryFromUmp 9 [0x35160102, 0x03040506, 0x35320708, 0] = .err .bufferOverflow := by
  decide +kernel

/-- C25 fails for accepted byte messages that contain bytes with the top bit set. -/
theorem C25_top_bit_violation :
    ∃ b : Buf .bytes, Sxb.tryFrom b = .ok b ∧ Sxb.fromBytes false b = .panic :=
  ⟨[0xF0, 0x80, 0xF7], by decide +kernel⟩

end Midi2
