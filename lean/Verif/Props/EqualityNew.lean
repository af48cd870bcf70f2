import Verif.Props.Equality

/-! # C61 for messages made in arrays -/

namespace Midi2

/-- In a message made in an array of the given size, writing back a property changes nothing. -/
def MsgDesc.settledIn (d : MsgDesc) (m : Fmt) (size : Nat) : Bool :=
  match initProps m d.props (List.replicate size 0) with
  | .ok b => decide (b.length = size) && d.props.all fun p => !p.2.accessible m ||
      (match p.2.read m b with
       | .ok v => p.2.faithful v && decide (p.2.write m b v = .ok b)
       | _ => false)
  | _ => false

theorem table_settledIn_ump : Msg.all.all (fun d => d.settledIn .ump d.room) = true := by
  decide +kernel
theorem table_settledIn_bytes : Msg.hybridAll.all (fun d => d.settledIn .bytes d.room8) = true := by
  decide +kernel

theorem settledIn_spec {d : MsgDesc} {m : Fmt} {size : Nat} (h : d.settledIn m size = true) :
    ∃ b : Buf m, initProps m d.props (List.replicate size 0) = .ok b ∧ b.length = size ∧
      ∀ n f, (n, f) ∈ d.props → f.accessible m = true →
        ∃ v, f.read m b = .ok v ∧ f.faithful v = true ∧ f.write m b v = .ok b := by
  unfold MsgDesc.settledIn at h
  cases hb : initProps m d.props (List.replicate size 0) with
  | err _ => rw [hb] at h; cases h
  | panic => rw [hb] at h; cases h
  | ok b =>
    rw [hb] at h
    simp only [Bool.and_eq_true, decide_eq_true_eq] at h
    refine ⟨b, rfl, h.1, fun n f hf ha => ?_⟩
    have := List.all_eq_true.mp h.2 (n, f) hf
    simp only [ha, Bool.not_true, Bool.false_or] at this
    cases e : f.read m b with
    | ok v =>
      rw [e] at this
      simp only [Bool.and_eq_true, decide_eq_true_eq] at this
      exact ⟨v, rfl, this⟩
    | err _ => rw [e] at this; cases this
    | panic => rw [e] at this; cases this

/-- Which array sizes `new` works for. -/
theorem newArray_ump_room {d : MsgDesc} (hd : d ∈ Msg.all) {size : Nat} {b : Buf .ump}
    (hb : d.newArray .ump size = .ok b) : d.room ≤ size := by
  have hmin : d.umpSize ≤ size := by
    unfold MsgDesc.newArray at hb
    by_cases h : size < d.minSize .ump
    · rw [if_pos h] at hb; cases hb
    · exact Nat.le_of_not_lt h
  unfold MsgDesc.room
  by_cases hn : d.name = "ump_stream::FunctionBlockDiscovery"
  · rw [if_pos hn]
    have hdd : d = Msg.streamFunctionBlockDiscovery := by
      have : ∀ d ∈ Msg.all, d.name = "ump_stream::FunctionBlockDiscovery" →
          d = Msg.streamFunctionBlockDiscovery := by decide +kernel
      exact this d hd hn
    subst hdd
    match size with
    | 0 => rw [show Msg.streamFunctionBlockDiscovery.newArray .ump 0 = .panic by decide +kernel] at hb; cases hb
    | 1 => rw [show Msg.streamFunctionBlockDiscovery.newArray .ump 1 = .panic by decide +kernel] at hb; cases hb
    | 2 => rw [show Msg.streamFunctionBlockDiscovery.newArray .ump 2 = .panic by decide +kernel] at hb; cases hb
    | 3 => rw [show Msg.streamFunctionBlockDiscovery.newArray .ump 3 = .panic by decide +kernel] at hb; cases hb
    | n + 4 => omega
  · rw [if_neg hn]; exact hmin

theorem newArray_bytes_room {d : MsgDesc} (hd : d ∈ Msg.hybridAll) {size : Nat} {b : Buf .bytes}
    (hb : d.newArray .bytes size = .ok b) : d.room8 ≤ size := by
  have hmin : d.minSize .bytes ≤ size := by
    unfold MsgDesc.newArray at hb
    by_cases h : size < d.minSize .bytes
    · rw [if_pos h] at hb; cases hb
    · exact Nat.le_of_not_lt h
  unfold MsgDesc.room8
  by_cases hn : d.name = "system_common::SongPositionPointer"
  · rw [if_pos hn]
    have hdd : d = Msg.sysSongPositionPointer := by
      have : ∀ d ∈ Msg.hybridAll, d.name = "system_common::SongPositionPointer" →
          d = Msg.sysSongPositionPointer := by decide +kernel
      exact this d hd hn
    subst hdd
    match size with
    | 0 => rw [show Msg.sysSongPositionPointer.newArray .bytes 0 = .panic by decide +kernel] at hb; cases hb
    | 1 => rw [show Msg.sysSongPositionPointer.newArray .bytes 1 = .panic by decide +kernel] at hb; cases hb
    | 2 => rw [show Msg.sysSongPositionPointer.newArray .bytes 2 = .panic by decide +kernel] at hb; cases hb
    | n + 3 => omega
  · rw [if_neg hn]; exact hmin

theorem accessible_not_walks {f : Fld} (ha : f.accessible .ump = true) : f.walks = false := by
  cases f <;> first | rfl | cases ha

theorem newArray_ump_settled {d : MsgDesc} (hd : d ∈ Msg.all) {size : Nat} {b : Buf .ump}
    (hb : d.newArray .ump size = .ok b) :
    b.length = size ∧ ∀ n f, (n, f) ∈ d.props → f.accessible .ump = true →
      ∃ v, f.read .ump b = .ok v ∧ f.faithful v = true ∧ f.write .ump b v = .ok b := by
  have hroom := newArray_ump_room hd hb
  obtain ⟨p, hp, hlp, hset⟩ := settledIn_spec (List.all_eq_true.mp table_settledIn_ump d hd)
  have hsm : ∀ q ∈ d.props, q.2.smallStatus = true := by
    have : ∀ d ∈ Msg.all, ∀ q ∈ d.props, q.2.smallStatus = true := by decide +kernel
    exact this d hd
  have hwr : (∃ q ∈ d.props, q.2.walks = true) → d.room = 4 := by
    have : ∀ d ∈ Msg.all, (∃ q ∈ d.props, q.2.walks = true) → d.room = 4 := by decide +kernel
    exact this d hd
  obtain ⟨s', i1, i2, _, _⟩ := initProps_app (s := List.replicate (size - d.room) 0) d.props hsm
    (fun h => ⟨by rw [List.length_replicate]; exact hwr h, by
      intro _
      have : head0 (List.replicate (size - d.room) (0 : BitVec 32)) = 0 := by
        cases size - d.room <;> rfl
      rw [this]; decide⟩) hp
  have hmin : d.umpSize ≤ d.room := by
    have : ∀ d ∈ Msg.all, d.umpSize ≤ d.room := by decide +kernel
    exact this d hd
  have e : b = p ++ s' := by
    unfold MsgDesc.newArray at hb
    rw [if_neg (show ¬ size < d.minSize .ump from by show ¬ size < d.umpSize; omega)] at hb
    rw [show size = d.room + (size - d.room) by omega, ← List.replicate_append_replicate] at hb
    exact (Res.ok.inj (i1.symm.trans hb)).symm
  subst e
  refine ⟨by rw [List.length_append, i2, hlp, List.length_replicate]; omega, fun n f hf ha => ?_⟩
  obtain ⟨v, h1, h2, h3⟩ := hset n f hf ha
  have hfit := MsgDesc.fits_mem (List.all_eq_true.mp table_ump_fits d hd) hf
  refine ⟨v, ?_, h2, ?_⟩
  · rw [Fld.read_append hfit (by omega)]; exact h1
  · exact (Fld.write32_app f (accessible_not_walks ha) h3 s').1

theorem newArray_bytes_settled {d : MsgDesc} (hd : d ∈ Msg.hybridAll) {size : Nat} {b : Buf .bytes}
    (hb : d.newArray .bytes size = .ok b) :
    b.length = size ∧ ∀ n f, (n, f) ∈ d.props → f.accessible .bytes = true →
      ∃ v, f.read .bytes b = .ok v ∧ f.faithful v = true ∧ f.write .bytes b v = .ok b := by
  have hroom := newArray_bytes_room hd hb
  obtain ⟨p, hp, hlp, hset⟩ := settledIn_spec (List.all_eq_true.mp table_settledIn_bytes d hd)
  obtain ⟨i1, _⟩ := initProps_app8 d.props hp (List.replicate (size - d.room8) 0)
  have hmin : d.minSize .bytes ≤ d.room8 := by
    have : ∀ d ∈ Msg.hybridAll, d.minSize .bytes ≤ d.room8 := by decide +kernel
    exact this d hd
  have hfits : d.fits .bytes d.room8 = true := by
    have : ∀ d ∈ Msg.hybridAll, d.fits .bytes d.room8 = true := by decide +kernel
    exact this d hd
  have e : b = p ++ List.replicate (size - d.room8) 0 := by
    unfold MsgDesc.newArray at hb
    rw [if_neg (by omega)] at hb
    rw [show size = d.room8 + (size - d.room8) by omega, ← List.replicate_append_replicate] at hb
    have := Res.ok.inj (i1.symm.trans hb)
    rw [← this]
  subst e
  refine ⟨by rw [List.length_append, hlp, List.length_replicate]; omega, fun n f hf ha => ?_⟩
  obtain ⟨v, h1, h2, h3⟩ := hset n f hf ha
  refine ⟨v, ?_, h2, ?_⟩
  · rw [Fld.read_append (MsgDesc.fits_mem hfits hf) (by omega)]; exact h1
  · exact (Fld.write8_app f h3 _).1

/-- C61 (UMP, arrays): messages made by `new` in an array, of any size for which it returns, and
setters are equal exactly if every getter returns the same for both.  Every type.  Partial: the
note attribute must not be cleared after it was set (`C56_stale_attribute_violation`). -/
theorem C61_new_array_ump_partial {d : MsgDesc} (hd : d ∈ Msg.all) {size : Nat} {b : Buf .ump}
    (hb : d.newArray .ump size = .ok b)
    {cs cs' : List SetCall} (hc : ∀ c ∈ cs, c.legal d .ump) (hc' : ∀ c ∈ cs', c.legal d .ump)
    (hna : ∀ n c, lastSet cs n = some c → c.clearsAttribute = false)
    (hna' : ∀ n c, lastSet cs' n = some c → c.clearsAttribute = false) :
    ∃ x y, runSetters .ump cs b = .ok x ∧ runSetters .ump cs' b = .ok y ∧
      (messageEq x y = true ↔ ∀ n f, (n, f) ∈ d.props → f.accessible .ump = true →
        f.read .ump x = f.read .ump y) := by
  obtain ⟨hl, hset⟩ := newArray_ump_settled hd hb
  refine C61_ump_partial hd b ?_ hset hc hc' hna hna'
  have := newArray_ump_room hd hb
  have : d.umpSize ≤ d.room := by
    have : ∀ d ∈ Msg.all, d.umpSize ≤ d.room := by decide +kernel
    exact this d hd
  omega

/-- C61 (bytes, arrays): every type and every size for which `new` returns. -/
theorem C61_new_array_bytes {d : MsgDesc} (hd : d ∈ Msg.hybridAll) {size : Nat} {b : Buf .bytes}
    (hb : d.newArray .bytes size = .ok b)
    {cs cs' : List SetCall} (hc : ∀ c ∈ cs, c.legal d .bytes)
    (hc' : ∀ c ∈ cs', c.legal d .bytes) :
    ∃ x y, runSetters .bytes cs b = .ok x ∧ runSetters .bytes cs' b = .ok y ∧
      (messageEq x y = true ↔ ∀ n f, (n, f) ∈ d.props → f.accessible .bytes = true →
        f.read .bytes x = f.read .bytes y) := by
  obtain ⟨hl, hset⟩ := newArray_bytes_settled hd hb
  have hroom := newArray_bytes_room hd hb
  have hn := of_decide_eq_true (List.all_eq_true.mp table_names d (hybrid_sub_all hd))
  have hmin : d.minSize .bytes ≤ d.room8 := by
    have : ∀ d ∈ Msg.hybridAll, d.minSize .bytes ≤ d.room8 := by decide +kernel
    exact this d hd
  have hg := good_bytes (b := b) hd (by omega) fun h => by
    have : d.room8 = 3 := if_pos h
    omega
  have hnoatt : ∀ cs : List SetCall, (∀ c ∈ cs, c.legal d .bytes) → ∀ n c, lastSet cs n = some c →
      c.clearsAttribute = false := by
    intro cs hc n c h
    have hdual := List.all_eq_true.mp (List.all_eq_true.mp table_dual d hd) _
      (hc c (lastSet_split h).1).1
    obtain ⟨n, f, v⟩ := c
    cases f <;> first | rfl | cases hdual
  obtain ⟨x, ex, _⟩ := setter_history hn cs hg hc
  obtain ⟨y, ey, _⟩ := setter_history hn cs' hg hc'
  refine ⟨x, y, ex, ey, ?_⟩
  simp only [messageEq, beq_iff_eq]
  constructor
  · rintro rfl
    exact fun _ _ _ _ => rfl
  · refine history_same_values hn hg (fun c h1 _ _ _ _ _ l1 l2 w1 w2 => ?_) hset hc hc'
      (hnoatt cs hc) (hnoatt cs' hc') ex ey
    obtain ⟨_, size, hfit, hsz⟩ := hg
    exact write_sameOn_bytes hd h1 (MsgDesc.fits_mem hfit h1.1) (by rw [l1]; exact hsz)
      (l1.trans l2.symm) w1 w2

/-- A song position pointer in an array of four bytes: another position is another message, and
going back to the first one makes them equal. -/
example :
    let pos (v : BitVec 14) : SetCall := ⟨"position", .hybrid .u14 ⟨0, 0x7F, 0x7F⟩ ⟨0x00007F7F, 0, 0, 0⟩, v⟩
    Msg.sysSongPositionPointer ∈ Msg.hybridAll ∧
    Msg.sysSongPositionPointer.newArray .bytes 4 = .ok [0xF2, 0, 0, 0] ∧
    (∀ c ∈ [pos 0x3FFF, pos 5], c.legal Msg.sysSongPositionPointer .bytes) ∧
    runSetters .bytes [pos 0x3FFF] [0xF2, 0, 0, 0] = .ok [0xF2, 0x7F, 0x7F, 0] ∧
    runSetters .bytes [pos 0x3FFF, pos 5] [0xF2, 0, 0, 0] = .ok [0xF2, 5, 0, 0] ∧
    runSetters .bytes [pos 5] [0xF2, 0, 0, 0] = .ok [0xF2, 5, 0, 0] := by
  intro pos
  refine ⟨by decide +kernel, by decide +kernel, ?_, by decide +kernel, by decide +kernel,
    by decide +kernel⟩
  intro c hc
  simp only [List.mem_cons, List.not_mem_nil, or_false] at hc
  rcases hc with rfl | rfl <;>
    exact ⟨by simp [Msg.sysSongPositionPointer, pos], by decide, rfl⟩

/-- A function block discovery in an array of four words. -/
example : ∃ b, Msg.streamFunctionBlockDiscovery ∈ Msg.all ∧
    Msg.streamFunctionBlockDiscovery.newArray .ump 4 = .ok b ∧ b.length = 4 :=
  ⟨_, by decide +kernel, rfl, rfl⟩

end Midi2
