import Verif.Lemmas.SysexHold

/-! # What `set_stream_id` really does -/

namespace Midi2
namespace Sx

theorem setStreamId_word (b : Buf .ump) (v : BitVec 8) (i : Nat) :
    (setStreamId b v)[i]? =
      if i % 4 = 0 ∧ i / 4 < s8.lead b then (b[i]?).map (U32.setOctet · 3 v) else b[i]? := by
  unfold setStreamId
  rw [onTyped_eq, onHeads_getElem? (by decide)]; rfl

theorem setStreamId_length (b : Buf .ump) (v : BitVec 8) :
    (setStreamId b v).length = b.length := by
  unfold setStreamId
  rw [onTyped_eq]
  exact onHeads_length s8.stride_pos _ _ b

theorem field_setOctet3 (w : BitVec 32) (v : BitVec 8) (o n : Nat) (h : o + n ≤ 24) :
    field (U32.setOctet w 3 v) o n = field w o n := by
  have e : ∀ x : BitVec 32, field x o n = (x.extractLsb' (32 - o - n) n).toNat := by
    intro x; rw [toNat_ext]; rfl
  rw [e, e, U32.setOctet_eq, ext_ins_disjoint]
  omega

theorem fieldAt_setStreamId (b : Buf .ump) (v : BitVec 8) (i o n : Nat) (h : o + n ≤ 24) :
    fieldAt (setStreamId b v) i o n = fieldAt b i o n := by
  unfold fieldAt
  rw [setStreamId_word]
  split
  · cases b[i]? with
    | none => rfl
    | some w => simp only [Option.map_some]; rw [field_setOctet3 w v o n h]
  · rfl

theorem run_setStreamId (b : Buf .ump) (v : BitVec 8) :
    (sysex8Layout.run (setStreamId b v)).map (fun w => field w 8 4) =
      (sysex8Layout.run b).map fun w => field w 8 4 := by
  unfold SysexLayout.run
  apply map_takeWhile_congr
  · unfold packetHeads
    simp only [List.length_map, List.length_range]
    rw [setStreamId_length]
  · intro j x y hx hy
    rw [packetHeads_getElem? _ _ (by decide)] at hx hy
    rw [setStreamId_word, hy] at hx
    split at hx
    · simp only [Option.map_some, Option.some.injEq] at hx
      subst hx
      rw [field_setOctet3 y v 0 4 (by omega), field_setOctet3 y v 8 4 (by omega)]
      exact ⟨rfl, rfl⟩
    · cases hx; exact ⟨rfl, rfl⟩

theorem accepts_setStreamId {b : Buf .ump} (A : sysex8Layout.Accepts b) (v : BitVec 8) :
    sysex8Layout.Accepts (setStreamId b v) := by
  have hrun : (sysex8Layout.run (setStreamId b v)).length = (sysex8Layout.run b).length := by
    have := congrArg List.length (run_setStreamId b v)
    simpa using this
  refine ⟨by rw [setStreamId_length]; exact A.len, by rw [run_setStreamId]; exact A.statuses, ?_, ?_, ?_⟩
  · intro j hj
    rw [setStreamId_length] at hj
    rw [fieldAt_setStreamId b v _ _ _ (by omega)]
    exact A.sizes j hj
  · intro j h1 h2
    rw [hrun] at h1
    rw [setStreamId_length] at h2
    rw [fieldAt_setStreamId b v _ _ _ (by omega), fieldAt_setStreamId b v _ _ _ (by omega)]
    exact A.groups j h1 h2
  · intro he j h1 h2
    rw [hrun] at h1
    rw [setStreamId_length] at h2
    rw [fieldAt_setStreamId b v _ _ _ (by omega), fieldAt_setStreamId b v _ _ _ (by omega)]
    exact A.streams he j h1 h2

theorem isMessage_setStreamId {b : Buf .ump} {g : Nat} {sizes : List Nat}
    (M : sysex8Layout.IsMessage b g sizes) (v : BitVec 8) :
    sysex8Layout.IsMessage (setStreamId b v) g sizes := by
  refine ⟨M.nonempty, by rw [setStreamId_length]; exact M.whole, M.small, ?_, ?_, ?_, ?_⟩
  · intro j h; rw [fieldAt_setStreamId b v _ _ _ (by omega)]; exact M.type j h
  · intro j h; rw [fieldAt_setStreamId b v _ _ _ (by omega)]; exact M.group j h
  · intro j h; rw [fieldAt_setStreamId b v _ _ _ (by omega)]; exact M.status j h
  · intro j s h; rw [fieldAt_setStreamId b v _ _ _ (by omega)]; exact M.size j s h

theorem octetVal_setStreamId {b : Buf .ump} {g : Nat} {sizes : List Nat}
    (M : sysex8Layout.IsMessage b g sizes) (v : BitVec 8) {j i : Nat} (hj : j < sizes.length)
    (hi : i < 13) :
    octetVal (setStreamId b v) (4 * 4 * j + 3 + i) =
      if i = 0 then v.toNat else octetVal b (4 * 4 * j + 3 + i) := by
  obtain ⟨g', _, V⟩ := isMessage_valid (k := .s8) M
  have hl : j < s8.lead b := Nat.lt_of_lt_of_le hj V.le_lead
  have hw : 4 * sizes.length ≤ b.length := M.whole
  split
  · next h =>
    subst h
    unfold octetVal fieldAt
    rw [setStreamId_word, if_pos ⟨by omega, by omega⟩,
      show (4 * 4 * j + 3 + 0) / 4 = 4 * j by omega, show (4 * 4 * j + 3 + 0) % 4 = 3 by omega,
      List.getElem?_eq_getElem (show 4 * j < b.length by omega)]
    simp only [Option.map_some, Option.getD_some]
    rw [← octet_field _ (by omega), U32.octet_setOctet _ _ _ (by omega) (by omega), if_pos rfl]
  · next h =>
    unfold octetVal fieldAt
    rw [setStreamId_word, if_neg (by omega)]

theorem packetBytes_setStreamId {b : Buf .ump} {g : Nat} {sizes : List Nat}
    (M : sysex8Layout.IsMessage b g sizes) (v : BitVec 8) {j s : Nat} (hj : sizes[j]? = some s) :
    sysex8Layout.packetBytes (setStreamId b v) j s =
      (sysex8Layout.packetBytes b j s).set 0 v.toNat := by
  obtain ⟨hj', e⟩ := List.getElem?_eq_some_iff.mp hj
  have hs : s ≤ 13 := M.small s (e ▸ List.getElem_mem hj')
  unfold SysexLayout.packetBytes
  apply List.ext_getElem
  · simp
  · intro i h1 h2
    simp only [List.length_map, List.length_range] at h1
    have := octetVal_setStreamId M v hj' (show i < 13 by omega)
    simp only [List.getElem_map, List.getElem_range, List.getElem_set]
    show octetVal (setStreamId b v) (4 * 4 * j + 3 + i) % 256 = _
    rw [this]
    by_cases h : i = 0
    · subst h
      rw [if_pos rfl, if_pos rfl]
      exact Nat.mod_eq_of_lt v.isLt
    · rw [if_neg h, if_neg (Ne.symm h)]; rfl

theorem payload_setStreamId {b : Buf .ump} {g : Nat} {sizes : List Nat}
    (M : sysex8Layout.IsMessage b g sizes) (v : BitVec 8) :
    sysex8Layout.payload (setStreamId b v) sizes =
      (sizes.zipIdx.map fun (s, j) => (sysex8Layout.packetBytes b j s).set 0 v.toNat).flatten := by
  unfold SysexLayout.payload
  congr 1
  apply List.map_congr_left
  intro ⟨s, j⟩ h
  exact packetBytes_setStreamId M v (List.mem_zipIdx_iff_getElem?.mp h)

/-! The stream ids of the packets and the operations on the payload -/

theorem streamId_field (b : Buf .ump) (j : Nat) :
    fieldAt b (4 * j) 16 8 = (octetAt b (4 * (4 * j) + 2)).map BitVec.toNat := by
  rw [octetAt_head b (4 * j) 2 (by omega)]
  unfold fieldAt
  cases b[4 * j]? with
  | none => rfl
  | some w => simp only [Option.map_some]; rw [octet_field w (by omega)]

theorem streamId_same {b b' : Buf .ump} (h : SameHeads s8 b b') (j : Nat) :
    octetAt b' (4 * (4 * j) + 2) = octetAt b (4 * (4 * j) + 2) := h.head j 2 (by decide)

theorem streamId_resized {g : BitVec 4} {p n : Nat} {b b' : Buf .ump} (r : Resized s8 g p n b b')
    (j : Nat) : octetAt b' (4 * (4 * j) + 2) = octetAt b (4 * (4 * j) + 2) := by
  by_cases hp : j < p
  · have := r.rest j 2 hp (by omega) (by decide)
    rw [if_neg (fun c => by
      have := c.2.2.2.1
      simp only [off] at this
      omega)] at this
    exact this
  · refine r.beyond _ ?_
    show 4 * (4 * p) ≤ _
    omega

/-- Arrays and slices: no operation on the payload changes a stream id. -/
theorem inv_streamIds (b0 : Buf .ump) :
    Inv s8 (fun b => ∀ j, octetAt b (4 * (4 * j) + 2) = octetAt b0 (4 * (4 * j) + 2)) true :=
  ⟨fun h i j => by rw [streamId_same h, i], fun h i j => by rw [streamId_resized h, i],
    fun h => by cases h⟩

/-- Vectors: stream ids are changed to 0 only. -/
theorem inv_streamIds_vec (P : Nat → BitVec 8 → Prop) (h0 : ∀ j, 0 < j → P j 0) {fixed : Bool} :
    Inv s8 (fun b => ∀ j o, octetAt b (4 * (4 * j) + 2) = some o → P j o) fixed := by
  refine ⟨fun h i j o e => ?_, fun h i j o e => ?_, fun _ b n hb hn i j o e => ?_⟩
  · rw [streamId_same h] at e; exact i j o e
  · rw [streamId_resized h] at e; exact i j o e
  · by_cases h : 4 * j < b.length
    · by_cases h' : 4 * j < n
      · rw [octetAt_vecResize_lt _ _ _ (by omega) (by omega)] at e
        exact i j o e
      · rw [octetAt_none (by rw [length_vecResize]; omega)] at e
        cases e
    · unfold octetAt vecResize at e
      rw [List.getElem?_append_right (by simp; omega), List.getElem?_replicate] at e
      split at e
      · have e2 : (4 * (4 * j) + 2) % 4 = 2 := by omega
        rw [e2] at e
        simp only [Option.map_some, Option.some.injEq] at e
        rw [← e]
        exact h0 j (by omega)
      · simp at e

/-- A buffer which is nothing but one message is accepted exactly when its stream ids agree. -/
theorem accepts_exact {b : Buf .ump} {g : Nat} {sizes : List Nat}
    (M : sysex8Layout.IsMessage b g sizes) (hl : b.length = 4 * sizes.length) :
    s8.tryFrom b = .ok b ↔ ∀ j, j < sizes.length → fieldAt b (4 * j) 16 8 = fieldAt b 0 16 8 := by
  obtain ⟨g', _, V⟩ := isMessage_valid (k := .s8) M
  rw [Sx.tryFrom_iff]
  constructor
  · intro A j hj
    refine A.streams rfl j ?_ ?_
    · rw [V.run_eq hl]; simpa using hj
    · show 4 * (j + 1) ≤ b.length
      omega
  · intro h
    exact V.accepts hl fun _ => h

end Sx
end Midi2
