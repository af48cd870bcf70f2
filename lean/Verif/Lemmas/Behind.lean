import Verif.Spec.Behind
import Verif.Props.EndToEnd
import Verif.Props.ConstructExact
import Verif.Props.Follow

/-! # Lemmas: messages in a part of a larger array -/

namespace Midi2

theorem accessible_stays {f : Fld} {m : Fmt} (h : f.accessible m = true) : f.walks = false := by
  cases f <;> first | rfl | (cases m <;> cases h)

/-- Setters do not look behind the message. -/
theorem runSetters_app : ∀ (calls : List SetCall), (∀ c ∈ calls, c.fld.accessible .ump = true) →
    ∀ {p q : Buf .ump}, runSetters .ump calls p = .ok q → ∀ s : Buf .ump,
      runSetters .ump calls (p ++ s) = .ok (q ++ s) ∧ q.length = p.length
  | [], _, p, q, h, s => by cases h; exact ⟨rfl, rfl⟩
  | c :: cs, hc, p, q, h, s => by
    obtain ⟨r, h1, h2⟩ := bind_inv h
    have h1 : c.fld.write32 p c.val = .ok r := h1
    obtain ⟨e1, e2⟩ := Fld.write32_app c.fld (accessible_stays (hc c List.mem_cons_self)) h1 s
    obtain ⟨i1, i2⟩ := runSetters_app cs (fun c h => hc c (List.mem_cons_of_mem _ h)) h2 s
    refine ⟨?_, by rw [i2, e2]⟩
    show (c.fld.write32 (p ++ s) c.val >>= _) = _
    rw [e1]; exact i1

theorem runSetters_app8 : ∀ (calls : List SetCall),
    ∀ {p q : Buf .bytes}, runSetters .bytes calls p = .ok q → ∀ s : Buf .bytes,
      runSetters .bytes calls (p ++ s) = .ok (q ++ s) ∧ q.length = p.length
  | [], p, q, h, s => by cases h; exact ⟨rfl, rfl⟩
  | c :: cs, p, q, h, s => by
    obtain ⟨r, h1, h2⟩ := bind_inv h
    have h1 : c.fld.write8 p c.val = .ok r := h1
    obtain ⟨e1, e2⟩ := Fld.write8_app c.fld h1 s
    obtain ⟨i1, i2⟩ := runSetters_app8 cs h2 s
    refine ⟨?_, by rw [i2, e2]⟩
    show (c.fld.write8 (p ++ s) c.val >>= _) = _
    rw [e1]; exact i1

theorem field_ext (w : BitVec 32) {pos width : Nat} :
    field w pos width = (w.extractLsb' (32 - pos - width) width).toNat := by
  rw [toNat_ext]; rfl

/-- A field after setting another one. -/
theorem field_ins_ne {m : Nat} (w : BitVec 32) (s : Nat) (v : BitVec m) {pos width : Nat}
    (h : s + m ≤ 32 - pos - width ∨ 32 - pos - width + width ≤ s) :
    field (ins w s v) pos width = field w pos width := by
  rw [field_ext, field_ext, ext_ins_disjoint _ _ _ _ h]

theorem field_ins_same {m : Nat} (w : BitVec 32) (v : BitVec m) {pos : Nat}
    (h : pos + m ≤ 32) : field (ins w (32 - pos - m) v) pos m = v.toNat := by
  rw [field_ext, ext_ins_same _ _ _ (by omega)]

theorem setStreamStatus_ins {t : BitVec 16} (ht : t.toNat < 1024) (w : BitVec 32) :
    setStreamStatus t w = ins w 16 (t.setWidth 10) := by
  rw [← setStreamStatus_eq, status10 ht]

theorem fieldAt_ext {x : List (BitVec 32)} {i : Nat} {w : BitVec 32} (h : x[i]? = some w)
    (pos width : Nat) : fieldAt x i pos width = some (field w pos width) := by
  unfold fieldAt; rw [h]; rfl

/-- The properties of a stream message. -/
theorem stream_props : ∀ d ∈ Msg.streamAll, ∃ t : BitVec 16, ∃ rest,
    d.props = ("ump_type", .umpType 0xF) :: ("status", .streamStatus t) ::
      ("consistent_formats", .streamFormats) :: rest ∧ t.toNat < 1024 ∧
    (∀ q ∈ rest, q.2.accessible .ump = true ∧
      ∀ k : Fin 32, 16 ≤ k.val → k.val < 26 → (q.2.umpBits.at 0).getLsbD k.val = false) ∧ d.umpSize ≤ 4 ∧ 0 < d.umpSize ∧ d.room = 4 := by
  intro d hd
  simp only [Msg.streamAll, List.mem_cons, List.not_mem_nil, or_false] at hd
  rcases hd with rfl | rfl | rfl | rfl | rfl | rfl | rfl | rfl | rfl <;>
    exact ⟨_, _, rfl, by decide, by decide +kernel, by decide, by decide, by decide +kernel⟩

/-- Initialising accessible properties changes only the words of the message. -/
theorem initProps_behind {d : MsgDesc} (hd : d ∈ Msg.all) : ∀ (ps : List (String × Fld)),
    (∀ q ∈ ps, q ∈ d.props ∧ q.2.accessible .ump = true) → ∀ {b x : Buf .ump},
    d.umpSize ≤ b.length → initProps .ump ps b = .ok x →
    x.length = b.length ∧ (∀ i, d.umpSize ≤ i → x[i]? = b[i]?) ∧
    ∀ k, (∀ q ∈ ps, (q.2.umpBits.at 0).getLsbD k = false) →
      (x[0]?).map (BitVec.getLsbD · k) = (b[0]?).map (BitVec.getLsbD · k)
  | [], _, b, x, _, h => by cases h; exact ⟨rfl, fun _ _ => rfl, fun _ _ => rfl⟩
  | (n, f) :: ps, hp, b, x, hb, h => by
    obtain ⟨r, h1, h2⟩ := bind_inv h
    obtain ⟨p1, p2⟩ := hp _ List.mem_cons_self
    obtain ⟨e1, e2⟩ := C04_ump_footprint hd p1 p2 b r hb f.default h1
    obtain ⟨i1, i2, i3⟩ := initProps_behind hd ps (fun q hq => hp q (List.mem_cons_of_mem _ hq))
      (by rw [e1]; exact hb) h2
    refine ⟨by rw [i1, e1], fun i hi => ?_, fun k hk => ?_⟩
    rotate_left
    · rw [i3 k (fun q hq => hk q (List.mem_cons_of_mem _ hq))]
      by_cases hl : 0 < b.length
      · rw [List.getElem?_eq_getElem (by omega), List.getElem?_eq_getElem hl]
        simp only [Option.map_some]
        congr 1
        apply Decidable.byContradiction
        intro hne
        have h1 := (e2 0 hl (by omega) k hne).1
        have h2 : (f.umpBits.at 0).getLsbD k = false := hk (n, f) List.mem_cons_self
        rw [h1] at h2; cases h2
      · rw [List.getElem?_eq_none (by omega), List.getElem?_eq_none (by omega)]
    rw [i2 i hi]
    by_cases hl : i < b.length
    · rw [List.getElem?_eq_getElem (by omega), List.getElem?_eq_getElem hl]
      congr 1
      apply BitVec.eq_of_getLsbD_eq
      intro k _
      apply Decidable.byContradiction
      intro hk
      have := (e2 i hl (by omega) k hk).2
      omega
    · rw [List.getElem?_eq_none (by omega), List.getElem?_eq_none (by omega)]

theorem field_crumb2 (w : BitVec 32) (v : BitVec 2) :
    field (U32.setCrumb w 2 v) 0 4 = field w 0 4 ∧ field (U32.setCrumb w 2 v) 16 16 = field w 16 16 ∧
    field (U32.setCrumb w 2 v) 6 10 = field w 6 10 ∧ field (U32.setCrumb w 2 v) 4 2 = v.toNat := by
  rw [U32.setCrumb_eq]
  refine ⟨field_ins_ne _ _ _ (by omega), field_ins_ne _ _ _ (by omega),
    field_ins_ne _ _ _ (by omega), ?_⟩
  exact field_ins_same (pos := 4) w v (by omega)

theorem field_status10 {t : BitVec 16} (ht : t.toNat < 1024) (w : BitVec 32) :
    field (setStreamStatus t w) 0 4 = field w 0 4 ∧
    field (setStreamStatus t w) 16 16 = field w 16 16 ∧
    field (setStreamStatus t w) 6 10 = t.toNat ∧ field (setStreamStatus t w) 4 2 = field w 4 2 := by
  rw [setStreamStatus_ins ht]
  refine ⟨field_ins_ne _ _ _ (by omega), field_ins_ne _ _ _ (by omega), ?_,
    field_ins_ne _ _ _ (by omega)⟩
  have := field_ins_same (pos := 6) w (t.setWidth 10) (by omega)
  rw [BitVec.toNat_setWidth, Nat.mod_eq_of_lt (by omega)] at this
  exact this

/-- The type, status and format of a stream message written to the front of an array. -/
theorem stream_front {t : BitVec 16} (ht : t.toNat < 1024) {used : Nat} (h0 : 0 < used)
    (hu : used ≤ 4) {b z : Buf .ump} (hb : 4 ≤ b.length) (hz : z.length = b.length)
    (hzb : ∀ i, used ≤ i → z[i]? = b[i]?) :
    ∃ x n, initProps .ump [("ump_type", .umpType 0xF), ("status", .streamStatus t),
        ("consistent_formats", .streamFormats)] z = .ok x ∧ RunBehind 4 15 b n ∧
      StreamBehind used t.toNat n b x ∧ fieldAt x 0 6 10 = some t.toNat := by
  have hz4 : 4 ≤ z.length := by omega
  obtain ⟨z0, hz0⟩ : ∃ w, z[0]? = some w := ⟨z[0], List.getElem?_eq_getElem (by omega)⟩
  obtain ⟨b1, e1, hl1, hb1⟩ : ∃ b1, (Fld.umpType 0xF).write32 z () = .ok b1 ∧ b1.length = z.length ∧
      ∀ i, b1[i]? = if i = 0 then some (U32.setNibble z0 0 0xF) else z[i]? := by
    cases z with
    | nil => cases hz0
    | cons a z =>
      cases hz0
      refine ⟨U32.setNibble z0 0 0xF :: z, rfl, rfl, fun i => ?_⟩
      cases i <;> rfl
  let b2 : Buf .ump := onChunksExact 4 b1 (fun cs => cs.map (modifyHead0 (setStreamStatus t)))
  have e2 : (Fld.streamStatus t).write32 b1 () = .ok b2 := rfl
  have hg2 : ∀ i : Nat, b2[i]? =
      if i % 4 = 0 ∧ i / 4 < b1.length / 4 then (b1[i]?).map (setStreamStatus t) else b1[i]? := by
    intro i
    exact onChunks_heads (k := 4) (by omega) (fun _ => setStreamStatus t) _ b1
      (fun i => by rw [List.getElem?_map]) i
  have hl2 : b2.length = b1.length := by
    apply length_of_getElem?
    intro i
    rw [hg2]
    split
    · rw [Option.isSome_map]
    · rfl
  have h15 : ∀ w : BitVec 32, U32.nibble w 0 = 0xF#4 ↔ field w 0 4 = 15 := by
    intro w
    rw [← nibble_field w (i := 0) (by omega)]
    exact ⟨fun h => by rw [h]; rfl, fun h => BitVec.eq_of_toNat_eq h⟩
  have hw2 : b2[0]? = some (setStreamStatus t (U32.setNibble z0 0 0xF)) := by
    rw [hg2, if_pos ⟨by omega, by omega⟩, hb1, if_pos rfl]; rfl
  have htype : ∀ j, 0 < j → 4 * (j + 1) ≤ b.length →
      ((∃ w, b2[4 * j]? = some w ∧ (U32.nibble w 0 == 0xF#4) = true) ↔
        fieldAt b (4 * j) 0 4 = some 15) := by
    intro j hj hle
    rw [hg2, if_pos ⟨by omega, by omega⟩, hb1, if_neg (by omega), hzb _ (by omega),
      List.getElem?_eq_getElem (by omega), fieldAt_ok (show 4 * j < b.length by omega)]
    simp only [Option.map_some, Option.some.injEq, exists_eq_left', beq_iff_eq,
      h15, (field_status10 ht _).1]
  generalize hn : leading 4 (fun w => U32.nibble w 0 == 0xF#4) b2 = n
  have hspec : ∀ j, j < n → 4 * (j + 1) ≤ b2.length ∧
      ∃ w, b2[4 * j]? = some w ∧ (U32.nibble w 0 == 0xF#4) = true := by
    intro j hj
    exact leading_spec (by omega) _ b2 j (by rw [← hn] at hj; exact hj)
  have hmax : ∀ p, 4 * p ≤ b.length →
      (∀ j, 0 < j → j < p → fieldAt b (4 * j) 0 4 = some 15) → p ≤ n := by
    intro p hp h
    rw [← hn]
    apply le_leading (by omega) _ b2 p (by omega)
    intro j hj
    by_cases hj0 : j = 0
    · subst hj0
      refine ⟨_, hw2, ?_⟩
      rw [nibble_setStreamStatus _ ht, beq_iff_eq, U32.nibble_setNibble _ _ _ (by omega) (by omega),
        if_pos rfl]
      rfl
    · exact (htype j (by omega) (by omega)).mpr (h j (by omega) hj)
  have hpos : 0 < n := hmax 1 (by omega) (fun j h1 h2 => by omega)
  have hnle : 4 * n ≤ b.length := by
    have := (hspec (n - 1) (by omega)).1
    omega
  have hrun : RunBehind 4 15 b n := by
    refine ⟨hpos, hnle, fun j h1 h2 => (htype j h1 (by omega)).mp (hspec j h2).2, fun h1 h2 => ?_⟩
    have := hmax (n + 1) h1 (fun j j1 j2 => by
      by_cases hj : j = n
      · rw [hj]; exact h2
      · exact (htype j j1 (by omega)).mp (hspec j (by omega)).2)
    omega
  obtain ⟨b3, e3, hl3, hg3⟩ := setFormatFields_get hpos hn
  have e3' : Fld.streamFormats.write32 b2 () = .ok b3 := e3
  refine ⟨b3, n, ?_, hrun, ⟨by omega, ?_⟩, ?_⟩
  · show ((Fld.umpType 0xF).write32 z () >>= fun b1 => (Fld.streamStatus t).write32 b1 () >>=
      fun b2 => Fld.streamFormats.write32 b2 () >>= fun b3 => Res.ok b3) = _
    rw [e1, Res.ok_bind, e2, Res.ok_bind, e3']; rfl
  · intro i hi hlt
    constructor
    · intro hh
      have hh : ¬ (i % 4 = 0 ∧ i + 4 ≤ b.length) := hh
      rw [hg3, if_neg (by omega), hg2, if_neg (by omega), hb1, if_neg (by omega), hzb i hi]
    · intro hh
      have hh : i % 4 = 0 ∧ i + 4 ≤ b.length := hh
      have hi0 : i ≠ 0 := by omega
      have x2 : b2[i]? = some (setStreamStatus t b[i]) := by
        rw [hg2, if_pos ⟨hh.1, by omega⟩, hb1, if_neg hi0, hzb i hi, List.getElem?_eq_getElem hlt]
        rfl
      have xb : b[i]? = some b[i] := List.getElem?_eq_getElem hlt
      obtain ⟨s1, s2, s3, s4⟩ := field_status10 ht b[i]
      by_cases hin : i / 4 < n
      · have x3 : b3[i]? = some (U32.setCrumb (setStreamStatus t b[i]) 2
            (FlexText.growFormat n (i / 4))) := by
          rw [hg3, if_pos ⟨hh.1, hin⟩, x2]; rfl
        obtain ⟨c1, c2, c3, c4⟩ := field_crumb2 (setStreamStatus t b[i]) (FlexText.growFormat n (i / 4))
        rw [fieldAt_ext x3, fieldAt_ext x3, fieldAt_ext x3, fieldAt_ext x3, fieldAt_ext xb,
          fieldAt_ext xb, c1, c2, c3, c4, s1, s2, s3]
        refine ⟨rfl, rfl, rfl, ?_⟩
        have hd0 : i / 4 ≠ 0 := by omega
        unfold FlexText.growFormat
        simp only [beq_iff_eq, if_neg hd0]
        by_cases hlast : i / 4 + 1 = n
        · rw [if_pos (by omega), if_pos hlast]; rfl
        · rw [if_neg (by omega), if_neg hlast, if_pos hin]; rfl
      · have x3 : b3[i]? = some (setStreamStatus t b[i]) := by
          rw [hg3, if_neg (by omega), x2]
        rw [fieldAt_ext x3, fieldAt_ext x3, fieldAt_ext x3, fieldAt_ext x3, fieldAt_ext xb,
          fieldAt_ext xb, fieldAt_ext xb, s1, s2, s3, s4, if_neg (by omega), if_neg hin]
        exact ⟨rfl, rfl, rfl, rfl⟩
  · have x3 : b3[0]? = some (U32.setCrumb (setStreamStatus t (U32.setNibble z0 0 0xF)) 2
        (FlexText.growFormat n 0)) := by
      rw [hg3, if_pos ⟨by omega, by omega⟩, hw2]; rfl
    rw [fieldAt_ext x3, (field_crumb2 _ _).2.2.1, (field_status10 ht _).2.2.1]

theorem initProps_two (m : Fmt) : ∀ (ps qs : List (String × Fld)) (b : Buf m),
    initProps m (ps ++ qs) b = (initProps m ps b >>= fun b => initProps m qs b)
  | [], _, _ => rfl
  | (n, f) :: ps, qs, b => by
    show (f.write m b f.default >>= fun b => initProps m (ps ++ qs) b) =
      ((f.write m b f.default >>= fun b => initProps m ps b) >>= _)
    cases f.write m b f.default with
    | ok c => exact initProps_two m ps qs c
    | err e => rfl
    | panic => rfl

theorem newVec_init (d : MsgDesc) (m : Fmt) :
    d.newVec m = initProps m d.props (List.replicate (d.minSize m) 0) := by
  unfold MsgDesc.newVec vecResize
  simp

theorem tryNewWithBuffer_init {d : MsgDesc} {m : Fmt} {b : Buf m} (h : d.minSize m ≤ b.length) :
    d.tryNewWithBuffer m b =
      initProps m d.props (List.replicate (d.minSize m) 0 ++ b.drop (d.minSize m)) := by
  unfold MsgDesc.tryNewWithBuffer fixedTryResize
  rw [if_neg (by omega)]
  rfl

end Midi2
