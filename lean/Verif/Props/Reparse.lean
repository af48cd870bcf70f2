import Verif.Props.Rebuffer

/-!
# C53: what `data()` returns is the message
-/

namespace Midi2

theorem fieldAt_take (b : List (BitVec 32)) {m i : Nat} (h : i < m) (p w : Nat) :
    fieldAt (b.take m) i p w = fieldAt b i p w := by
  unfold fieldAt
  rw [List.getElem?_take_of_lt h]

theorem packetHeads_take {k : Nat} (hk : 0 < k) (b : List (BitVec 32)) {n : Nat}
    (h : k * n ≤ b.length) : packetHeads k (b.take (k * n)) = (packetHeads k b).take n := by
  unfold packetHeads
  have e1 : (b.take (k * n)).length = k * n := by rw [List.length_take]; omega
  have e2 : (k * n + k - 1) / k = n := by
    rw [show k * n + k - 1 = k - 1 + k * n by omega, Nat.add_mul_div_left _ _ hk,
      Nat.div_eq_of_lt (by omega)]
    omega
  have e3 : n ≤ (b.length + k - 1) / k := by
    rw [Nat.le_div_iff_mul_le hk, Nat.mul_comm]; omega
  rw [e1, e2, ← List.map_take, List.take_range, Nat.min_eq_left e3]
  refine List.map_congr_left fun i hi => ?_
  have hi : i < n := by simpa using hi
  rw [List.getElem?_take_of_lt (Nat.mul_lt_mul_of_pos_left hi hk)]

theorem takeWhile_take {α : Type} (p : α → Bool) (l : List α) :
    (l.take (l.takeWhile p).length).takeWhile p = l.takeWhile p := by
  induction l with
  | nil => rfl
  | cons x xs ih =>
    cases hx : p x with
    | true => simp [hx, ih]
    | false => simp [hx]

/-- The packets of a message, cut out of the slice, are the same packets. -/
theorem heads_take {k : Nat} (hk : 0 < k) (b : List (BitVec 32)) (p : BitVec 32 → Bool)
    (h : k * ((packetHeads k b).takeWhile p).length ≤ b.length) :
    (packetHeads k (b.take (k * ((packetHeads k b).takeWhile p).length))).takeWhile p =
      (packetHeads k b).takeWhile p := by
  rw [packetHeads_take hk b h, takeWhile_take]

theorem octetVal_take (b : List (BitVec 32)) {m a : Nat} (h : a < 4 * m) :
    octetVal (b.take m) a = octetVal b a := by
  unfold octetVal
  rw [fieldAt_take b (by omega)]

/-! ## Fixed-size messages -/

/-- C53 for the fixed-size message types (UMP): what `data()` returns is accepted as the same
message, whose `data()` it is, and every getter returns the same.  Missing, since the code
violates it: a stream message whose first packet is not marked as complete. -/
theorem C53_fixed_ump_partial {d : MsgDesc} (hd : d ∈ Msg.all) (b x : Buf .ump)
    (hok : d.tryFrom .ump b = .ok b) (hx : d.data .ump b = .ok x)
    (hs : fieldAt b 0 0 4 = some 15 → fieldAt b 0 4 2 = some 0) :
    d.tryFrom .ump x = .ok x ∧ d.data .ump x = .ok x ∧
      ∀ n f, (n, f) ∈ d.props → f.read .ump x = f.read .ump b := by
  obtain ⟨hl, hv⟩ := (tryFrom_iff d .ump b).mp hok
  have hl : d.umpSize ≤ b.length := hl
  rw [data_ok (m := .ump) hl] at hx
  cases hx
  have hfit := List.all_eq_true.mp table_ump_fits d hd
  have hlen : (b.take d.umpSize).length = d.umpSize := by rw [List.length_take]; omega
  have hsplit : b.take d.umpSize ++ b.drop d.umpSize = b := List.take_append_drop _ _
  have hwf : d.WellFormed .ump b := by
    by_cases h : d.WellFormed .ump b
    · exact h
    · rw [(C07_ump_accepts_exactly hd b).2 h] at hok; cases hok
  have hsz : ∀ d ∈ Msg.all, 0 < d.umpSize ∧ d.umpSize ≤ 4 := by decide +kernel
  obtain ⟨hsz0, hsz4⟩ := hsz d hd
  refine ⟨?_, ?_, fun n f hf => ?_⟩
  · show d.tryFrom .ump (b.take d.umpSize) = .ok (b.take d.umpSize)
    rw [tryFrom_iff]
    refine ⟨show d.umpSize ≤ _ by omega, fun p hp => ?_⟩
    have hpf := MsgDesc.fits_mem hfit (show (p.1, p.2) ∈ d.props from hp)
    cases hr : p.2.ranging with
    | false =>
      have := Fld.validate_append (b := b.take d.umpSize) hpf (fun _ => hr) (by omega)
        (b.drop d.umpSize)
      rw [hsplit] at this
      rw [← this]
      exact hv p hp
    | true =>
      have hL := hwf.2 p hp
      have hv' : p.2.validate .ump (b.take d.umpSize) = .ok () ↔ p.2.Legal (b.take d.umpSize) := by
        simp only [Fld.fits, Bool.and_eq_true, decide_eq_true_eq] at hpf
        exact (Fld.validate32_iff p.2 hpf.1 (by omega)).1
      rw [hv']
      have hk0 : ∀ k, 4 * k + 4 ≤ (b.take d.umpSize).length → k = 0 := by
        intro k hk
        rw [hlen] at hk
        omega
      cases hf : p.2 with
      | flexStatus s =>
        rw [hf] at hL
        intro k hk
        cases hk0 k hk
        rw [fieldAt_take b (by omega)]
        exact hL 0 (by omega)
      | flexBank s =>
        rw [hf] at hL
        intro k hk
        cases hk0 k hk
        rw [fieldAt_take b (by omega)]
        exact hL 0 (by omega)
      | streamStatus s =>
        rw [hf] at hL
        intro k hk
        cases hk0 k hk
        rw [fieldAt_take b (by omega)]
        exact hL 0 (by omega)
      | streamFormats =>
        rw [hf] at hL
        have hb : 0 < b.length := by omega
        show SeqOk _
        have e1 : packetHeads 4 (b.take d.umpSize) = [b[0]] := by
          unfold packetHeads
          rw [hlen, show (d.umpSize + 4 - 1) / 4 = 1 by omega]
          show [((b.take d.umpSize)[0]?).getD 0] = _
          rw [List.getElem?_take_of_lt hsz0, List.getElem?_eq_getElem hb]; rfl
        have hne : ((packetHeads 4 b).takeWhile (fun w => decide (field w 0 4 = 15))) ≠ [] := by
          intro e
          have hL : SeqOk _ := hL
          rw [e] at hL
          rcases hL with h | ⟨n, h⟩ <;> cases h
        have e2 : ∃ r, packetHeads 4 b = b[0] :: r := by
          unfold packetHeads
          obtain ⟨m, hm⟩ : ∃ m, (b.length + 4 - 1) / 4 = m + 1 := ⟨(b.length + 4 - 1) / 4 - 1, by omega⟩
          rw [hm, List.range_succ_eq_map]
          refine ⟨((List.range m).map Nat.succ).map fun i => (b[4 * i]?).getD 0, ?_⟩
          rw [List.map_cons]
          show ((b[0]?).getD 0) :: _ = _
          rw [List.getElem?_eq_getElem hb]; rfl
        obtain ⟨r, e2⟩ := e2
        rw [e2, List.takeWhile_cons] at hne
        have h15 : field b[0] 0 4 = 15 := by
          by_cases h : field b[0] 0 4 = 15
          · exact h
          · rw [if_neg (by simpa using h)] at hne
            exact absurd rfl hne
        have h0 : field b[0] 4 2 = 0 := by
          have := hs (by unfold fieldAt; rw [List.getElem?_eq_getElem hb]; exact congrArg some h15)
          unfold fieldAt at this
          rw [List.getElem?_eq_getElem hb] at this
          exact Option.some.inj this
        rw [e1]
        left
        simp [h15, h0]
      | _ => rw [hf] at hr; cases hr
  · show d.data .ump (b.take d.umpSize) = .ok (b.take d.umpSize)
    rw [data_ok (m := .ump) (show d.umpSize ≤ _ by omega)]
    show Res.ok ((b.take d.umpSize).take d.umpSize) = _
    rw [List.take_take, Nat.min_self]
  · have := Fld.read_append (b := b.take d.umpSize) (MsgDesc.fits_mem hfit hf) (by omega)
      (b.drop d.umpSize)
    rw [hsplit] at this
    exact this.symm

/-- C53 for the fixed-size message types (bytes).  Missing, since the code violates it: the
getters of `SongPositionPointer`. -/
theorem C53_fixed_bytes_partial {d : MsgDesc} (hd : d ∈ Msg.hybridAll) (b x : Buf .bytes)
    (hok : d.tryFrom .bytes b = .ok b) (hx : d.data .bytes b = .ok x) :
    d.tryFrom .bytes x = .ok x ∧ d.data .bytes x = .ok x ∧
      (d.name ≠ "system_common::SongPositionPointer" →
        ∀ n f, (n, f) ∈ d.props → f.read .bytes x = f.read .bytes b) := by
  obtain ⟨hl, hv⟩ := (tryFrom_iff d .bytes b).mp hok
  rw [data_ok hl] at hx
  cases hx
  have hlen : (b.take (d.minSize .bytes)).length = d.minSize .bytes := by
    rw [List.length_take]; omega
  have hsplit : b.take (d.minSize .bytes) ++ b.drop (d.minSize .bytes) = b :=
    List.take_append_drop _ _
  have hwf : d.WellFormed .bytes b := by
    by_cases h : d.WellFormed .bytes b
    · exact h
    · rw [(C07_bytes_accepts_exactly hd b).2 h] at hok; cases hok
  have hsz : ∀ d ∈ Msg.hybridAll, 0 < d.minSize .bytes := by decide +kernel
  have hsz0 := hsz d hd
  refine ⟨?_, ?_, fun hn n f hf => ?_⟩
  · refine (C07_bytes_accepts_exactly hd _).1 ⟨show d.minSize .bytes ≤ _ by omega, fun p hp => ?_⟩
    have hL := hwf.2 p hp
    cases hf : p.2 with
    | cvStatus s =>
      rw [hf] at hL
      show Option.map _ (List.take _ b)[0]? = _
      rw [List.getElem?_take_of_lt hsz0]; exact hL
    | sysStatus s =>
      rw [hf] at hL
      show Option.map _ (List.take _ b)[0]? = _
      rw [List.getElem?_take_of_lt hsz0]; exact hL
    | _ => trivial
  · rw [data_ok (by omega), List.take_take, Nat.min_self]
  · obtain ⟨_, size, hfit, hsz⟩ := good_bytes hd (Nat.le_of_eq hlen.symm) (fun h => absurd h hn)
    have := Fld.read_append (MsgDesc.fits_mem hfit hf) hsz (b.drop (d.minSize .bytes))
    rw [hsplit] at this
    exact this.symm

example : Msg.flexSetTempo.tryFrom .ump [0xD0100000, 0x1000, 0, 0] =
    .ok [0xD0100000, 0x1000, 0, 0] :=
  (C53_fixed_ump_partial (d := Msg.flexSetTempo) (by simp [Msg.all, Msg.flexAll])
    [0xD0100000, 0x1000, 0, 0, 0x20903C40] [0xD0100000, 0x1000, 0, 0] (by decide +kernel)
    (by decide +kernel) (by decide)).1

example : Msg.cv1NoteOn.tryFrom .bytes [0x93, 0x3C, 0x40] = .ok [0x93, 0x3C, 0x40] :=
  (C53_fixed_bytes_partial (d := Msg.cv1NoteOn) (by simp [Msg.hybridAll, Msg.cv1All])
    [0x93, 0x3C, 0x40, 0xF8] [0x93, 0x3C, 0x40] (by decide +kernel) (by decide +kernel)).1

/-! ## System exclusive messages -/

theorem Sx.run_take {L : SysexLayout} (hw : 0 < L.words) (b : List (BitVec 32))
    (hu : L.Untruncated b) : L.run (b.take (L.words * (L.run b).length)) = L.run b :=
  heads_take hw b _ hu

/-- C53 for sysex: what `data()` of an untruncated message returns is accepted as the same
message, whose `data()` it is; payload, group and stream id are the same. -/
theorem C53_sysex_partial (k : Sx) (b x : Buf .ump) (hok : k.tryFrom b = .ok b)
    (hu : k.layout.Untruncated b) (hx : k.data b = .ok x) :
    k.tryFrom x = .ok x ∧ k.data x = .ok x ∧ k.payloadList x = k.payloadList b ∧
      k.payloadSize x = k.payloadSize b ∧ Sx.group x = Sx.group b ∧
      Sx.streamId x = Sx.streamId b := by
  obtain ⟨g, sizes, M, hlen, l, h1, h2, h3, h4⟩ := C23_payload_of_accepted k b hok hu
  rw [hx] at h4
  cases h4
  have A := (Sx.tryFrom_iff k b).mp hok
  have hw : 0 < k.layout.words := by cases k <;> decide
  have hn0 : 0 < sizes.length := by
    have := M.nonempty
    cases hs : sizes with
    | nil => exact absurd hs this
    | cons _ _ => simp
  have hwhole := M.whole
  have hn1 : k.layout.words * 1 ≤ k.layout.words * sizes.length := Nat.mul_le_mul_left _ hn0
  have hxl : (b.take (k.layout.words * sizes.length)).length = k.layout.words * sizes.length := by
    rw [List.length_take]; omega
  have hrun : k.layout.run (b.take (k.layout.words * sizes.length)) = k.layout.run b := by
    rw [hlen]; exact Sx.run_take hw b hu
  have hin : ∀ j, j < sizes.length → k.layout.words * j < k.layout.words * sizes.length :=
    fun j hj => Nat.mul_lt_mul_of_pos_left hj hw
  have hacc : k.layout.Accepts (b.take (k.layout.words * sizes.length)) := by
    have hj : ∀ j, k.layout.words * (j + 1) ≤ (b.take (k.layout.words * sizes.length)).length →
        j < sizes.length := by
      intro j hj
      rw [hxl] at hj
      exact Nat.lt_of_succ_le (Nat.le_of_mul_le_mul_left hj hw)
    refine ⟨by omega, by rw [hrun]; exact A.statuses, fun j h => ?_, fun j h h' => ?_,
      fun he j h h' => ?_⟩
    · rw [fieldAt_take b (hin j (hj j h))]
      exact A.sizes j (by rw [hxl] at h; omega)
    · rw [fieldAt_take b (hin j (hj j h')), fieldAt_take b (by omega)]
      rw [hrun] at h
      exact A.groups j h (by rw [hxl] at h'; omega)
    · rw [fieldAt_take b (hin j (hj j h')), fieldAt_take b (by omega)]
      rw [hrun] at h
      exact A.streams he j h (by rw [hxl] at h'; omega)
  have hok' := (Sx.tryFrom_iff k _).mpr hacc
  have hu' : k.layout.Untruncated (b.take (k.layout.words * sizes.length)) := by
    show k.layout.words * _ ≤ _
    rw [hrun, hxl, hlen]; exact Nat.le_refl _
  obtain ⟨g', sizes', M', hlen', l', h1', h2', h3', h4'⟩ := C23_payload_of_accepted k _ hok' hu'
  have hsl : sizes'.length = sizes.length := by rw [hlen', hrun, hlen]
  have hsz : sizes' = sizes := by
    apply List.ext_getElem?
    intro j
    by_cases hj : j < sizes.length
    · have a := M.size j _ (List.getElem?_eq_getElem hj)
      have a' := M'.size j _ (List.getElem?_eq_getElem (show j < sizes'.length by omega))
      rw [fieldAt_take b (hin j hj), a] at a'
      rw [List.getElem?_eq_getElem hj, List.getElem?_eq_getElem (show j < sizes'.length by omega)]
      have := Option.some.inj a'
      exact congrArg some (by omega)
    · rw [List.getElem?_eq_none (by omega), List.getElem?_eq_none (by omega)]
  subst hsz
  have hl : l' = l := by
    have e : l'.map BitVec.toNat = l.map BitVec.toNat := by
      rw [h3, h3']
      unfold SysexLayout.payload
      congr 1
      refine List.map_congr_left fun ⟨s, j⟩ hm => ?_
      have hj := (List.mem_zipIdx' hm)
      unfold SysexLayout.packetBytes
      refine List.map_congr_left fun i hi => ?_
      have hi : i < s := by simpa using hi
      have hs : s ≤ k.layout.capacity := M.small s (by rw [hj.2]; exact List.getElem_mem hj.1)
      have hcap : k.layout.first + k.layout.capacity ≤ 4 * k.layout.words := by cases k <;> decide
      have hm1 : k.layout.words * (j + 1) ≤ k.layout.words * sizes'.length :=
        Nat.mul_le_mul_left _ hj.1
      rw [Nat.mul_succ] at hm1
      have hassoc : 4 * k.layout.words * j = 4 * (k.layout.words * j) := Nat.mul_assoc ..
      rw [octetVal_take b (by omega)]
    exact List.map_inj_right (fun _ _ h => BitVec.eq_of_toNat_eq h) |>.mp e
  subst hl
  have hat : ∀ {m}, 0 < m → at' (b.take m) 0 = at' b 0 := by
    intro m hm
    unfold at'
    rw [List.getElem?_take_of_lt hm]
  refine ⟨hok', ?_, by rw [h1, h1'], by rw [h2, h2'], ?_, ?_⟩
  · rw [h4', List.take_take, Nat.min_self]
  · unfold Sx.group
    rw [hat (by omega)]
  · unfold Sx.streamId
    rw [hat (by omega)]

example : Sx.s7.payloadList [0x30110100, 0, 0x30200000, 0, 0x30320203, 0] =
    Sx.s7.payloadList [0x30110100, 0, 0x30200000, 0, 0x30320203, 0, 0x10000000, 0] :=
  (C53_sysex_partial .s7 [0x30110100, 0, 0x30200000, 0, 0x30320203, 0, 0x10000000, 0]
    [0x30110100, 0, 0x30200000, 0, 0x30320203, 0] (by decide +kernel)
    (show 2 * (sysex7Layout.run [0x30110100, 0, 0x30200000, 0, 0x30320203, 0, 0x10000000, 0]).length
      ≤ 8 by decide +kernel) (by decide +kernel)).2.2.1

/-- C53 for sysex over bytes. -/
theorem C53_sysex7_bytes (b x : Buf .bytes) (hok : Sxb.tryFrom b = .ok b) (hx : Sxb.data b = .ok x) :
    Sxb.tryFrom x = .ok x ∧ Sxb.data x = .ok x ∧ Sxb.payloadList x = Sxb.payloadList b ∧
      Sxb.payloadSize x = Sxb.payloadSize b := by
  obtain ⟨p, rest, rfl, hp⟩ := accepted_raw hok
  have hr : Sxb.raw p rest = Sxb.raw p [] ++ rest := by simp [Sxb.raw]
  have h0 : Sxb.tryFrom (Sxb.raw p []) = .ok (Sxb.raw p []) := by
    rw [C07_sysex7_bytes_accepts_exactly]
    exact ⟨rfl, by simp [Sxb.raw, Sxb.endByte]⟩
  obtain ⟨e1, e2, e3, e4⟩ := C12_sysex7_bytes_suffix (Sxb.raw p []) rest h0
  have hd : Sxb.data (Sxb.raw p []) = .ok (Sxb.raw p []) := by
    rw [Sxb.data_raw hp]; rfl
  rw [hr, e2, hd] at hx
  cases hx
  rw [hr]
  exact ⟨h0, hd, e3.symm, e4.symm⟩

example : Sxb.tryFrom [0xF0, 1, 2, 0xF7] = .ok [0xF0, 1, 2, 0xF7] :=
  (C53_sysex7_bytes [0xF0, 1, 2, 0xF7, 0xF8] [0xF0, 1, 2, 0xF7] (by decide +kernel) (by decide +kernel)).1

/-! ## Text messages -/

theorem utf8_inj {s s' : String} (h : utf8 s = utf8 s') : s = s' := by
  rw [utf8_eq, utf8_eq] at h
  have h := (List.map_inj_right (fun _ _ h => BitVec.eq_of_toNat_eq h)).mp h
  have h1 := fromUtf8_strBytes s
  rw [h, fromUtf8_strBytes] at h1
  exact (Res.ok.inj h1).symm

theorem FlexText.slots_take (b : List (BitVec 32)) {n : Nat} (h : 4 * n ≤ b.length)
    (h' : b.length < 4 * n + 4) : FlexText.slots (b.take (4 * n)) = FlexText.slots b := by
  unfold FlexText.slots
  have e1 : (b.take (4 * n)).length = 4 * n := by rw [List.length_take]; omega
  rw [e1, show 4 * n / 4 = n by omega, show b.length / 4 = n by omega]
  refine List.map_congr_left fun i hi => ?_
  have hi : i < 12 * n := by simpa using hi
  rw [octetVal_take b (by omega)]

/-- C53 for flex data text: what `data()` returns is accepted as the same message, whose
`data()` it is, with the same group, channel and text.  Missing, since the code violates it: a
slice with another packet behind the message. -/
theorem C53_flex_text_partial (t : FlexText) (b x : Buf .ump) (hok : t.tryFrom b = .ok b)
    (hw : 4 * (FlexText.run b).length ≤ b.length) (hs : b.length < 4 * (FlexText.run b).length + 4)
    (hx : FlexText.data b = .ok x) :
    t.tryFrom x = .ok x ∧ FlexText.data x = .ok x ∧ FlexText.text x = FlexText.text b ∧
      FlexText.group x = FlexText.group b ∧ FlexText.channel x = FlexText.channel b := by
  obtain ⟨d, ps, h1, h2, _⟩ := C06_flex_text_data_partial t b hok hw
  rw [hx] at h1
  cases h1
  have A := (FlexText.tryFrom_iff t b).mp hok
  have hlen := A.len
  have hn : 1 ≤ (FlexText.run b).length := by omega
  have hrun : FlexText.run (b.take (4 * (FlexText.run b).length)) = FlexText.run b :=
    heads_take (by omega) b _ hw
  have hxl : (b.take (4 * (FlexText.run b).length)).length = 4 * (FlexText.run b).length := by
    rw [List.length_take]; omega
  have hsl := FlexText.slots_take b hw hs
  have hacc : t.Accepts x := by
    rw [h2]
    refine ⟨by omega, by rw [hrun]; exact A.formats, fun j h h' => ?_, fun j h => ?_,
      fun j h => ?_, by rw [hsl]; exact A.text⟩
    · rw [fieldAt_take b (by omega), fieldAt_take b (by omega)]
      exact A.groups j (by rw [hrun] at h; exact h) (by omega)
    · rw [fieldAt_take b (by omega)]
      exact A.banks j (by omega)
    · rw [fieldAt_take b (by omega)]
      exact A.statuses j (by omega)
  have hok' := (FlexText.tryFrom_iff t x).mpr hacc
  obtain ⟨d', _, h1', h2', _⟩ := C06_flex_text_data_partial t x hok' (by rw [h2, hrun]; omega)
  have hat : at' x 0 = at' b 0 := by
    unfold at'
    rw [h2, List.getElem?_take_of_lt (by omega)]
  obtain ⟨_, _, s, l, a1, _, _, a2⟩ := C06_flex_text_getters t b hok
  obtain ⟨_, _, s', l', c1, _, _, c2⟩ := C06_flex_text_getters t x hok'
  refine ⟨hok', ?_, ?_, ?_, ?_⟩
  · rw [h1', h2']
    conv => lhs; rw [h2, hrun, List.take_take, Nat.min_self]
    rw [h2]
  · have : s' = s := utf8_inj (by rw [c2, a2, h2, hsl])
    rw [a1, c1, this]
  · unfold FlexText.group
    rw [hat]
  · unfold FlexText.channel
    rw [hat]

theorem StreamText.slots_take (t : StreamText) (hc : t.first + t.capacity = 16)
    (b : List (BitVec 32)) {n : Nat} (h : 4 * n ≤ b.length)
    (h' : b.length < 4 * n + 4) : t.slots (b.take (4 * n)) = t.slots b := by
  unfold StreamText.slots
  have e1 : (b.take (4 * n)).length = 4 * n := by rw [List.length_take]; omega
  rw [e1, show 4 * n / 4 = n by omega, show b.length / 4 = n by omega]
  refine List.map_congr_left fun i hi => ?_
  have hi : i < t.capacity * n := by simpa using hi
  have hc0 : 0 < t.capacity := by
    rcases Nat.eq_zero_or_pos t.capacity with h | h
    · rw [h, Nat.zero_mul] at hi; omega
    · exact h
  have h1 : i / t.capacity < n := (Nat.div_lt_iff_lt_mul hc0).mpr (by rw [Nat.mul_comm]; exact hi)
  have h2 := Nat.mod_lt i hc0
  rw [octetVal_take b (by omega)]

/-- C53 for stream text: what `data()` returns is accepted as the same message, whose `data()`
it is, with the same text and function block.  Missing, since the code violates it: a slice with
another packet behind the message. -/
theorem C53_stream_text_partial (t : StreamText) (ht : t ∈ StreamText.all) (b x : Buf .ump)
    (hok : t.tryFrom b = .ok b) (hw : 4 * (StreamText.run b).length ≤ b.length)
    (hs : b.length < 4 * (StreamText.run b).length + 4) (hx : StreamText.data b = .ok x) :
    t.tryFrom x = .ok x ∧ StreamText.data x = .ok x ∧ t.text x = t.text b ∧
      StreamText.block x = StreamText.block b := by
  have K := StreamText.known_of_mem ht
  obtain ⟨d, ps, h1, h2, _⟩ := C06_stream_text_data_partial t ht b hok hw
  rw [hx] at h1
  cases h1
  have A := (StreamText.tryFrom_iff K b).mp hok
  have hlen := A.len
  have hn : 1 ≤ (StreamText.run b).length := by omega
  have hrun : StreamText.run (b.take (4 * (StreamText.run b).length)) = StreamText.run b :=
    heads_take (by omega) b _ hw
  have hxl : (b.take (4 * (StreamText.run b).length)).length = 4 * (StreamText.run b).length := by
    rw [List.length_take]; omega
  have hcap : ∀ t ∈ StreamText.all, t.first + t.capacity = 16 := by decide
  have hsl := StreamText.slots_take t (hcap t ht) b hw hs
  have hacc : t.Accepts x := by
    rw [h2]
    refine ⟨by omega, by rw [hrun]; exact A.formats, fun j h => ?_, fun ho j h => ?_,
      by rw [hsl]; exact A.text⟩
    · rw [fieldAt_take b (by omega)]
      exact A.statuses j (by omega)
    · rw [fieldAt_take b (by omega), fieldAt_take b (by omega)]
      exact A.blocks ho j (by omega)
  have hok' := (StreamText.tryFrom_iff K x).mpr hacc
  obtain ⟨d', _, h1', h2', _⟩ := C06_stream_text_data_partial t ht x hok' (by rw [h2, hrun]; omega)
  have hat : at' x 0 = at' b 0 := by
    unfold at'
    rw [h2, List.getElem?_take_of_lt (by omega)]
  obtain ⟨_, s, l, a1, _, _, a2⟩ := C06_stream_text_getters t ht b hok
  obtain ⟨_, s', l', c1, _, _, c2⟩ := C06_stream_text_getters t ht x hok'
  refine ⟨hok', ?_, ?_, ?_⟩
  · rw [h1', h2']
    conv => lhs; rw [h2, hrun, List.take_take, Nat.min_self]
    rw [h2]
  · have : s' = s := utf8_inj (by rw [c2, a2, h2, hsl])
    rw [a1, c1, this]
  · unfold StreamText.block
    rw [hat]

example : FlexText.text [0xD0500201, 0x61620000, 0, 0, 0xD0D00201, 0x63000000, 0, 0] =
    FlexText.text [0xD0500201, 0x61620000, 0, 0, 0xD0D00201, 0x63000000, 0, 0, 0x20903C40] :=
  (C53_flex_text_partial ⟨"Lyrics", 2, 1⟩
    [0xD0500201, 0x61620000, 0, 0, 0xD0D00201, 0x63000000, 0, 0, 0x20903C40]
    [0xD0500201, 0x61620000, 0, 0, 0xD0D00201, 0x63000000, 0, 0] (by decide +kernel)
    (by decide +kernel) (by decide +kernel) (by decide +kernel)).2.2.1

example : StreamText.endpointName.text [0xF0036162, 0, 0, 0] =
    StreamText.endpointName.text [0xF0036162, 0, 0, 0, 0x20903C40] :=
  (C53_stream_text_partial .endpointName (by decide) [0xF0036162, 0, 0, 0, 0x20903C40]
    [0xF0036162, 0, 0, 0] (by decide +kernel) (by decide +kernel) (by decide +kernel)
    (by decide +kernel)).2.2.1

/-! ## The enums -/

/-- The slices C53 is proved for: the last packet is whole; a stream message is marked as
complete or is a text; a text message has no other packet behind it. -/
def UmpKind.Alone : UmpKind → List (BitVec 32) → Prop
  | .fixed _, b => fieldAt b 0 0 4 = some 15 → fieldAt b 0 4 2 = some 0
  | .sysex k, b => k.layout.Untruncated b
  | .flexText _, b => 4 * (FlexText.run b).length ≤ b.length ∧
      b.length < 4 * (FlexText.run b).length + 4
  | .streamText _, b => 4 * (StreamText.run b).length ≤ b.length ∧
      b.length < 4 * (StreamText.run b).length + 4

/-- C53 for `UmpMessage`: what `data()` returns is parsed as the same variant, and is its own
`data()`. -/
theorem C53_ump_message_partial (b b' x : Buf .ump) (k : UmpKind)
    (hok : UmpMessage.tryFrom b = .ok (k, b')) (hx : UmpMessage.data (k, b') = .ok x)
    (ha : k.Alone b) :
    UmpMessage.tryFrom x = .ok (k, x) ∧ UmpMessage.data (k, x) = .ok x := by
  obtain ⟨rfl, hk, h, he, _⟩ := C10_ump_variant b b' k hok
  have hx : k.data b' = .ok x := hx
  have key : k.tryFrom x = .ok x ∧ k.data x = .ok x := by
    cases k with
    | fixed d =>
      have hall : ∀ e ∈ umpTable, match e.1 with | .fixed d => d ∈ Msg.all | _ => True := by
        have : umpTable.all (fun e => match e.1 with
          | .fixed d => decide (d ∈ Msg.all) | _ => true) = true := by decide +kernel
        intro e he
        have := List.all_eq_true.mp this e he
        cases hk : e.1 with
        | fixed d => rw [hk] at this; simpa using this
        | _ => trivial
      obtain ⟨h1, h2, _⟩ := C53_fixed_ump_partial (hall _ he) b' x hk hx ha
      exact ⟨h1, h2⟩
    | sysex k =>
      obtain ⟨h1, h2, _⟩ := C53_sysex_partial k b' x hk ha hx
      exact ⟨h1, h2⟩
    | flexText t =>
      obtain ⟨h1, h2, _⟩ := C53_flex_text_partial t b' x hk ha.1 ha.2 hx
      exact ⟨h1, h2⟩
    | streamText t =>
      have hall : umpTable.all (fun e => match e.1 with
          | .streamText t => decide (t ∈ StreamText.all) | _ => true) = true := by decide +kernel
      have ht : t ∈ StreamText.all := by simpa using List.all_eq_true.mp hall _ he
      obtain ⟨h1, h2, _⟩ := C53_stream_text_partial t ht b' x hk ha.1 ha.2 hx
      exact ⟨h1, h2⟩
  obtain ⟨h', hc', ho', _⟩ := UmpMessage.tryFrom_iff.mp hok
  refine ⟨UmpMessage.tryFrom_iff.mpr ⟨h', hc', ?_, key.1⟩, key.2⟩
  have h0 : x[0]? = b'[0]? := by
    obtain ⟨y, hy⟩ := UmpKind.data_is_prefix k hx
    have hne : 0 < x.length := by
      have := header_type he key.1
      unfold fieldAt at this
      cases x with
      | nil => cases this
      | cons _ _ => simp
    rw [← hy, List.getElem?_append_left hne]
  unfold Header.Of fieldAt at ho' ⊢
  rw [h0]
  exact ho'

example : UmpMessage.tryFrom [0x40973C00, 0x80000000] =
    .ok (.fixed Msg.cv2NoteOn, [0x40973C00, 0x80000000]) :=
  (C53_ump_message_partial [0x40973C00, 0x80000000, 7] [0x40973C00, 0x80000000, 7]
    [0x40973C00, 0x80000000] (.fixed Msg.cv2NoteOn) (by decide +kernel) (by decide +kernel)
    (by show _ → _; decide)).1

/-- C53 for `BytesMessage`. -/
theorem C53_bytes_message (b b' x : Buf .bytes) (k : BytesKind)
    (hok : BytesMessage.tryFrom b = .ok (k, b')) (hx : BytesMessage.data (k, b') = .ok x) :
    BytesMessage.tryFrom x = .ok (k, x) ∧ BytesMessage.data (k, x) = .ok x := by
  obtain ⟨lo, hi, he⟩ := C11_bytes_variant b b' k hok
  obtain ⟨hk, rfl⟩ := (C11_bytes_dispatch he b b').1.mp hok
  have hx : k.data b' = .ok x := hx
  have key : k.tryFrom x = .ok x ∧ k.data x = .ok x := by
    cases k with
    | fixed d =>
      have hall : bytesTable.all (fun e => match e.1 with
          | .fixed d => decide (d ∈ Msg.hybridAll) | _ => true) = true := by decide +kernel
      have hd : d ∈ Msg.hybridAll := by simpa using List.all_eq_true.mp hall _ he
      obtain ⟨h1, h2, _⟩ := C53_fixed_bytes_partial hd b' x hk hx
      exact ⟨h1, h2⟩
    | sysex7 =>
      obtain ⟨h1, h2, _⟩ := C53_sysex7_bytes b' x hk hx
      exact ⟨h1, h2⟩
  exact ⟨(C11_bytes_dispatch he x x).1.mpr ⟨key.1, rfl⟩, key.2⟩

example : BytesMessage.tryFrom [0xF0, 1, 2, 0xF7] = .ok (.sysex7, [0xF0, 1, 2, 0xF7]) :=
  (C53_bytes_message [0xF0, 1, 2, 0xF7, 0xF8] [0xF0, 1, 2, 0xF7, 0xF8] [0xF0, 1, 2, 0xF7] .sysex7
    (by decide +kernel) (by decide +kernel)).1

/-! ## Violations -/

/-- C53 is violated by stream messages of one packet: a begin and an end packet are accepted as
one `StartOfClip`, whose `data()` is the begin packet, which is not accepted. -/
theorem C53_stream_formats_violation :
    ∃ b x : Buf .ump, UmpMessage.tryFrom b = .ok (.fixed Msg.streamStartOfClip, b) ∧
      UmpMessage.data (.fixed Msg.streamStartOfClip, b) = .ok x ∧
      UmpMessage.tryFrom x = .err .invalidData :=
  ⟨[0xF4200000, 0, 0, 0, 0xFC200000, 0, 0, 0], [0xF4200000, 0, 0, 0], by decide +kernel,
    by decide +kernel, by decide +kernel⟩

/-- C53 is violated by flex data text: `text()` goes on with the octets of a note on message
behind the text message (its note and velocity are the bank and status of the text); and what
`data()` returns need not even be accepted. -/
theorem C53_flex_text_violation :
    (∃ b x : Buf .ump, UmpMessage.tryFrom b = .ok (.flexText ⟨"CopyrightNotice", 1, 4⟩, b) ∧
      UmpMessage.data (.flexText ⟨"CopyrightNotice", 1, 4⟩, b) = .ok x ∧
      FlexText.text b = .ok "abcd" ∧ FlexText.text x = .ok "ab") ∧
    ∃ b x : Buf .ump, UmpMessage.tryFrom b = .ok (.flexText ⟨"CopyrightNotice", 1, 4⟩, b) ∧
      UmpMessage.data (.flexText ⟨"CopyrightNotice", 1, 4⟩, b) = .ok x ∧
      UmpMessage.tryFrom x = .err .invalidData :=
  ⟨⟨[0xD0100104, 0x61620000, 0, 0, 0x20900104, 0x63640000, 0, 0],
      [0xD0100104, 0x61620000, 0, 0], by decide +kernel, by decide +kernel, by decide +kernel,
      by decide +kernel⟩,
    [0xD0100104, 0xC3000000, 0, 0, 0x20900104, 0xA9000000, 0, 0], [0xD0100104, 0xC3000000, 0, 0],
    by decide +kernel, by decide +kernel, by decide +kernel⟩

/-- C53 is violated by stream text in the same way. -/
theorem C53_stream_text_violation :
    ∃ b x : Buf .ump, UmpMessage.tryFrom b = .ok (.streamText .endpointName, b) ∧
      UmpMessage.data (.streamText .endpointName, b) = .ok x ∧
      StreamText.endpointName.text b = .ok "abcdef" ∧ StreamText.endpointName.text x = .ok "ab" :=
  ⟨[0xF0036162, 0, 0, 0, 0x40036364, 0x65660000, 0, 0], [0xF0036162, 0, 0, 0], by decide +kernel,
    by decide +kernel, by decide +kernel, by decide +kernel⟩

/-- C53 is violated by `SongPositionPointer` over bytes: `data()` leaves the third byte out, and
the getter panics without it. -/
theorem C53_song_position_pointer_violation :
    ∃ b x : Buf .bytes, BytesMessage.tryFrom b = .ok (.fixed Msg.sysSongPositionPointer, b) ∧
      BytesMessage.data (.fixed Msg.sysSongPositionPointer, b) = .ok x ∧
      Fld.read .bytes (.hybrid .u14 ⟨0, 0x7F, 0x7F⟩ ⟨0x00007F7F, 0, 0, 0⟩) b = .ok (8323 : BitVec 14) ∧
      Fld.read .bytes (.hybrid .u14 ⟨0, 0x7F, 0x7F⟩ ⟨0x00007F7F, 0, 0, 0⟩) x = .panic :=
  ⟨[0xF2, 3, 65], [0xF2, 3], by decide +kernel, by decide +kernel, by decide +kernel,
    by decide +kernel⟩

end Midi2
