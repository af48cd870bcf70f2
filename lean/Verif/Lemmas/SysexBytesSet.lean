import Verif.Lemmas.SysexBytes

/-! # Replacing the payload of a byte message -/

namespace Midi2

namespace Sxb

theorem payloadSize_le (p rest : List (BitVec 8)) :
    ∃ k, payloadSize (raw p rest) = .ok k ∧ k ≤ p.length := by
  by_cases h : endByte ∈ p
  · obtain ⟨q, q', rfl, hq⟩ := List.eq_append_cons_of_mem h
    refine ⟨q.length, ?_, by simp⟩
    have : raw (q ++ endByte :: q') rest = raw q (q' ++ endByte :: rest) := by simp [raw]
    rw [this]
    exact payloadSize_raw hq
  · exact ⟨p.length, payloadSize_raw h, Nat.le_refl _⟩

theorem moveTail_idle (p rest : List (BitVec 8)) {to : Nat} (h : p.length ≤ to)
    (h' : to ≤ p.length + rest.length + 1) :
    moveTail (raw p rest) 0 to = .ok (raw p rest) := by
  obtain ⟨k, hk, hle⟩ := payloadSize_le p rest
  unfold moveTail
  rw [hk, Res.ok_bind]
  by_cases h0 : 0 < to
  · rw [if_pos h0]
    unfold copyWithin
    rw [show k - to = 0 by omega]
    rw [if_pos ⟨by omega, by rw [raw_length]; omega, by rw [raw_length]; omega⟩]
    congr 1
    simp [List.drop_take]
  · rw [if_neg h0, if_neg (by omega)]

theorem fill_raw (m : Sx.Mem) (rest : List (BitVec 8)) (est : Nat) :
    ∀ (data : List (BitVec 7)) (x q : List (BitVec 8)), est = x.length + q.length →
      (ops m).fill 0 est data (raw (x ++ q) rest) x.length =
        .ok (raw (x ++ (data.map e).take q.length ++ q.drop data.length) rest,
          data.drop q.length, x.length + min q.length data.length, decide (data.length < q.length)) := by
  intro data
  induction data with
  | nil =>
    intro x q he
    simp only [SxOps.fill, List.map_nil, List.take_nil, List.append_nil, List.length_nil,
      List.drop_zero, List.drop_nil, Nat.min_zero, Nat.add_zero]
    congr 4
    rw [he]
    rw [decide_eq_decide]
    omega
  | cons v data ih =>
    intro x q he
    unfold SxOps.fill
    cases q with
    | nil =>
      rw [if_neg (by simp at he; omega)]
      simp
    | cons c q =>
      rw [if_pos (by simp at he; omega)]
      have hw : (ops m).writeDatum (raw (x ++ c :: q) rest) v (0 + x.length) =
          .ok (raw ((x ++ [e v]) ++ q) rest) := by
        show writeDatum _ _ _ = _
        rw [Nat.zero_add, write_raw v (by simp)]
        simp
      rw [hw, Res.ok_bind]
      have := ih (x ++ [e v]) q (by simp at he ⊢; omega)
      rw [List.length_append, List.length_singleton] at this
      rw [this]
      simp only [List.map_cons, List.length_cons, List.take_succ_cons, List.drop_succ_cons,
        List.append_assoc, List.cons_append]
      have a1 : x.length + 1 + min q.length data.length =
          x.length + min (q.length + 1) (data.length + 1) := by omega
      have a2 : decide (data.length < q.length) = decide (data.length + 1 < q.length + 1) := by
        rw [decide_eq_decide]; omega
      rw [a1, a2]
      rfl

/-- `try_resize(0)`. -/
theorem tryResize_zero {p rest : List (BitVec 8)} (hp : endByte ∉ p) :
    ∃ r, tryResizeFixed (raw p rest) 0 = .ok (raw [] r, none) ∧ r.length = p.length + rest.length ∧
      (p = [] → r = rest) := by
  rcases Nat.lt_or_ge p.length 2 with h | h
  · refine ⟨_, tryResize_fits hp (by rw [raw_length]; omega) h, ?_, ?_⟩
    · simp
    · rintro rfl; rfl
  · refine ⟨_, tryResize_shrinks hp h, ?_, ?_⟩
    · simp; omega
    · rintro rfl; simp at h

theorem resizeVec_zero {p rest : List (BitVec 8)} (hp : endByte ∉ p) :
    resizeVec (raw p rest) 0 = .ok (raw [] []) := resizeVec_shrink hp (Nat.zero_le _)

/-- `try_set_payload` on a fixed buffer, with an exact size hint. -/
theorem trySetPayload_exact {p rest : List (BitVec 8)} (hp : endByte ∉ p) (d : Src (BitVec 7))
    (hd : d.estimate = d.items.length) :
    (d.items.length ≤ p.length + rest.length → ∃ r,
      (ops .fixed).trySetPayload (raw p rest) d = .ok (raw (d.items.map e) r, none) ∧
        d.items.length + r.length = p.length + rest.length ∧
        (p = [] → r = rest.drop d.items.length)) ∧
    (p.length + rest.length < d.items.length → ∃ r,
      (ops .fixed).trySetPayload (raw p rest) d = .ok (raw [] r, some .bufferOverflow) ∧
        r.length = p.length + rest.length) := by
  obtain ⟨r1, e1, hr1, hr0⟩ := tryResize_zero (rest := rest) hp
  have hset : (ops .fixed).trySetPayload (raw p rest) d = (ops .fixed).tryInsert (raw [] r1) d 0 := by
    unfold SxOps.trySetPayload
    show (tryResizeFixed _ 0 >>= _) = _
    rw [e1]; rfl
  rw [hset]
  have hempty : endByte ∉ ([] : List (BitVec 8)) := by simp
  have ps1 : payloadSize (raw [] r1) = .ok 0 := payloadSize_raw hempty
  have hmap : endByte ∉ d.items.map e := end_notin _
  have hbig : (raw ([] : List (BitVec 8)) r1).length = r1.length + 2 := by rw [raw_length]; simp
  constructor
  · intro hfit
    -- the buffer before the items are written
    have start : ∃ q r2, (ops .fixed).firstGrow (raw [] r1) 0 0 0 d.items.length =
        .ok (raw q r2, d.items.length) ∧ q.length = d.items.length ∧ q.length + r2.length = r1.length ∧
          r2 = r1.drop d.items.length := by
      unfold SxOps.firstGrow
      rw [Nat.zero_add, usub_ok (Nat.zero_le _)]
      simp only [Res.ok_bind, Nat.sub_zero]
      by_cases h0 : 0 < d.items.length
      · rw [if_pos h0, usub_ok (Nat.zero_le _)]
        simp only [Res.ok_bind, Nat.sub_zero, Nat.add_zero]
        have := tryResize_fits (p := []) (rest := r1) hempty (n := d.items.length)
          (by rw [hbig]; omega) (by simp)
        refine ⟨([] ++ 0 :: r1).take d.items.length, ([] ++ 0 :: r1).drop (d.items.length + 1),
          ?_, ?_, ?_, rfl⟩
        · show (tryResizeFixed _ _ >>= _) = _
          rw [this]; rfl
        · simp; omega
        · simp; omega
      · rw [if_neg h0]
        have : d.items.length = 0 := by omega
        exact ⟨[], r1, by rw [this], by simp [this], by simp, by rw [this]; rfl⟩
    obtain ⟨q, r2, g1, hq, hr2, hr3⟩ := start
    have hfinal := tryResize_fits (p := d.items.map e) (rest := r2) hmap (n := d.items.length)
      (by rw [raw_length, List.length_map]; omega) (by rw [List.length_map]; omega)
    have hk : (d.items.map e ++ 0 :: r2).take d.items.length = d.items.map e := by
      rw [List.take_append_of_le_length (by simp), List.take_of_length_le (by simp)]
    have hk2 : (d.items.map e ++ 0 :: r2).drop (d.items.length + 1) = r2 := by
      rw [show d.items.length + 1 = (d.items.map e ++ [0]).length by simp,
        show d.items.map e ++ 0 :: r2 = (d.items.map e ++ [0]) ++ r2 by simp, List.drop_left]
    rw [hk, hk2] at hfinal
    have hloop : (ops .fixed).mainLoop 0 0 0 (d.items.length + 1) (raw q r2) d.items 0
        d.items.length 1 d.items.length = .ok (.done (raw (d.items.map e) r2) d.items.length
          d.items.length) := by
      unfold SxOps.mainLoop
      have := fill_raw .fixed r2 d.items.length d.items [] q (by simp [hq])
      simp only [List.nil_append, List.length_nil, Nat.zero_add] at this
      rw [this]
      simp only [Res.ok_bind, hq, Nat.lt_irrefl, decide_false, Nat.min_self, beq_self_eq_true,
        Res.assert, if_true, Bool.false_eq_true, if_false]
      rw [List.drop_of_length_le (Nat.le_refl _), List.take_of_length_le (by simp),
        List.drop_of_length_le (by omega), List.append_nil]
      rfl
    refine ⟨r2, ?_, by omega, fun h => by rw [hr3, hr0 h]⟩
    have hdet : (ops .fixed).trySpliceDetail (raw [] r1) d (.included 0) (.excluded 0) =
        .ok (raw (d.items.map e) r2, none) := by
      unfold SxOps.trySpliceDetail
      have hc : (ops .fixed).compact (raw [] r1) = .ok (raw [] r1) := rfl
      have hps : (ops .fixed).payloadSize (raw [] r1) = .ok 0 := ps1
      rw [hc, Res.ok_bind, hps]
      simp only [Res.ok_bind, Bound.spliceBegin, Bound.spliceEnd]
      rw [usub_ok (Nat.le_refl _)]
      simp only [Res.ok_bind, Nat.sub_self, hd, g1, Nat.zero_add]
      rw [usub_ok (Nat.zero_le _)]
      simp only [Res.ok_bind, Nat.sub_zero]
      have hm : (ops .fixed).moveTail (raw q r2) 0 d.items.length = .ok (raw q r2) :=
        moveTail_idle q r2 (by omega) (by omega)
      rw [hm]
      simp only [Res.ok_bind, hloop, Nat.add_zero]
      have hm2 : (ops .fixed).moveTail (raw (d.items.map e) r2) d.items.length d.items.length = _ :=
        moveSame_raw hmap d.items.length
      rw [hm2]
      simp only [Res.ok_bind]
      rw [usub_ok (Nat.zero_le _)]
      simp only [Res.ok_bind, Nat.sub_zero]
      have hf : (ops .fixed).resize (raw (d.items.map e) r2) d.items.length = _ := hfinal
      rw [hf]
      rfl
    unfold SxOps.tryInsert SxOps.trySplice
    rw [hdet]
    rfl
  · intro hbig'
    have hn0 : 0 < d.items.length := by omega
    have hfull := tryResize_full (p := []) (rest := r1) hempty (n := d.items.length)
      (by rw [hbig]; omega)
    simp only [List.length_nil, Nat.zero_add, List.nil_append] at hfull
    -- all the room there is
    obtain ⟨q, hq, hqe⟩ : ∃ q : List (BitVec 8), q.length = r1.length ∧
        tryResizeFixed (raw [] r1) d.items.length = .ok (raw q [], some r1.length) :=
      ⟨_, by simp, hfull⟩
    have hgrow : (ops .fixed).firstGrow (raw [] r1) 0 0 0 d.items.length =
        .ok (raw q [], r1.length) := by
      unfold SxOps.firstGrow
      rw [Nat.zero_add, usub_ok (Nat.zero_le _)]
      simp only [Res.ok_bind, Nat.sub_zero]
      rw [if_pos hn0, usub_ok (Nat.zero_le _)]
      simp only [Res.ok_bind, Nat.sub_zero, Nat.add_zero]
      show (tryResizeFixed _ _ >>= _) = _
      rw [hqe]
      simp only [Res.ok_bind]
      rw [usub_ok (Nat.zero_le _)]
      rfl
    have hpart : endByte ∉ (d.items.take r1.length).map e := end_notin _
    have hpl : ((d.items.take r1.length).map e).length = r1.length := by simp; omega
    have hagain := tryResize_full (p := (d.items.take r1.length).map e) (rest := []) hpart
      (n := r1.length + 1) (by rw [raw_length, hpl]; simp)
    rw [hpl] at hagain
    simp only [List.length_nil, Nat.add_zero] at hagain
    have htake : ((d.items.take r1.length).map e ++ [0]).take r1.length =
        (d.items.take r1.length).map e := by
      rw [List.take_append_of_le_length (by rw [hpl]; exact Nat.le_refl _)]
      exact List.take_of_length_le (by rw [hpl]; exact Nat.le_refl _)
    rw [htake] at hagain
    have hloop : (ops .fixed).mainLoop 0 0 0 (d.items.length + 1) (raw q []) d.items 0
        r1.length 1 r1.length = .ok (.overflow (raw ((d.items.take r1.length).map e) [])) := by
      unfold SxOps.mainLoop
      have := fill_raw .fixed [] r1.length d.items [] q (by simp [hq])
      simp only [List.nil_append, List.length_nil, Nat.zero_add] at this
      rw [this]
      have hlt : ¬ d.items.length < r1.length := by omega
      have hmin : min r1.length d.items.length = r1.length := by omega
      have hne : (d.items.drop r1.length).isEmpty = false := by
        rw [List.isEmpty_eq_false_iff]; intro h
        have := congrArg List.length h
        simp at this; omega
      simp only [Res.ok_bind, hq, hlt, decide_false, hmin, beq_self_eq_true, hne,
        Res.assert, if_true, Bool.false_eq_true, if_false]
      rw [List.drop_of_length_le (by omega), List.append_nil, ← List.map_take]
      unfold SxOps.growMore
      rw [if_pos (by omega), usub_ok (Nat.zero_le _)]
      simp only [Res.ok_bind, Nat.sub_zero, Nat.add_zero]
      have hr : (ops .fixed).resize (raw ((d.items.take r1.length).map e) []) (r1.length + 1) = _ :=
        hagain
      rw [hr]
      simp only [Res.ok_bind]
      rw [usub_ok (Nat.zero_le _)]
      simp only [Res.ok_bind, Nat.sub_zero, Nat.zero_add]
      rw [usub_ok (Nat.zero_le _)]
      simp only [Res.ok_bind, Nat.sub_zero]
      have hm : (ops .fixed).moveTail (raw ((d.items.take r1.length).map e) []) r1.length r1.length = _ :=
        moveSame_raw hpart _
      rw [hm]
      simp
    have hdet : (ops .fixed).trySpliceDetail (raw [] r1) d (.included 0) (.excluded 0) =
        .ok (raw ((d.items.take r1.length).map e) [], some .bufferOverflow) := by
      unfold SxOps.trySpliceDetail
      have hc : (ops .fixed).compact (raw [] r1) = .ok (raw [] r1) := rfl
      have hps : (ops .fixed).payloadSize (raw [] r1) = .ok 0 := ps1
      rw [hc, Res.ok_bind, hps]
      simp only [Res.ok_bind, Bound.spliceBegin, Bound.spliceEnd]
      rw [usub_ok (Nat.le_refl _)]
      simp only [Res.ok_bind, Nat.sub_self, hd, hgrow, Nat.zero_add]
      rw [usub_ok (Nat.zero_le _)]
      simp only [Res.ok_bind, Nat.sub_zero]
      have hm : (ops .fixed).moveTail (raw q []) 0 r1.length = .ok (raw q []) :=
        moveTail_idle q [] (by omega) (by simp; omega)
      rw [hm]
      simp only [Res.ok_bind, hloop]
      rfl
    obtain ⟨r, hz, hrl, _⟩ := tryResize_zero (rest := []) hpart
    refine ⟨r, ?_, by rw [hrl, hpl]; simp; omega⟩
    unfold SxOps.tryInsert SxOps.trySplice
    rw [hdet]
    simp only [Res.ok_bind]
    have hz' : (ops .fixed).resize (raw ((d.items.take r1.length).map e) []) 0 = _ := hz
    rw [hz']
    rfl

end Sxb

end Midi2
