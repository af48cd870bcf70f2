import Verif.Props.ReparseExact

/-!
# C08 exactly: which buffers a constructor makes a valid message in
-/

namespace Midi2

/-- The part of a buffer after the first packet starts with another packet of UMP stream type. -/
def Noisy (s : List (BitVec 32)) : Prop := 4 ≤ s.length ∧ U32.nibble (head0 s) 0 = 0xF#4

theorem noisy_status {s : List (BitVec 32)} (h : Noisy s) {t : BitVec 16} (ht : t.toNat < 1024)
    (a b c e : BitVec 32) : ∃ s', Fld.write .ump (.streamStatus t) ([a, b, c, e] ++ s) () =
      .ok ([setStreamStatus t a, b, c, e] ++ s') ∧ s'.length = s.length ∧ Noisy s' := by
  refine ⟨onChunksExact 4 s (List.map (modifyHead0 (setStreamStatus t))), ?_, ?_, ?_, ?_⟩
  · show Res.ok _ = _
    rw [onChunks_cons (k := 4) (by omega) [a, b, c, e] s rfl (List.map (modifyHead0 (setStreamStatus t)))
      (modifyHead0 (setStreamStatus t) [a, b, c, e]) (List.map (modifyHead0 (setStreamStatus t))) rfl]
    rfl
  · exact onChunks_map_length (by omega) _ (modifyHead0_length _) s
  · rw [onChunks_map_length (by omega) _ (modifyHead0_length _)]; exact h.1
  · rw [head0_onChunks_map _ _ h.1, nibble_setStreamStatus t ht]; exact h.2

theorem setFormatLoop_length : ∀ ps : List (List (BitVec 32)),
    (setFormatLoop ps).map List.length = ps.map List.length := by
  intro ps
  induction ps using setFormatLoop.induct with
  | _ => simp_all [setFormatLoop, modifyHead0_length]

theorem noisy_formats {s : List (BitVec 32)} (h : Noisy s) {a : BitVec 32}
    (ha : U32.nibble a 0 = 0xF#4) (b c e : BitVec 32) :
    ∃ s', Fld.write .ump .streamFormats ([a, b, c, e] ++ s) () =
      .ok ([U32.setCrumb a 2 1, b, c, e] ++ s') ∧ s'.length = s.length := by
  show ∃ s', setFormatFields _ = _ ∧ _
  unfold setFormatFields
  have e1 : chunksExact 4 ([a, b, c, e] ++ s) = [a, b, c, e] :: chunksExact 4 s := by
    rw [chunksExact_cons (by omega) (by simp)]; rfl
  have hs : chunksExact 4 s = s.take 4 :: chunksExact 4 (s.drop 4) :=
    chunksExact_cons (by omega) h.1
  have hn : (U32.nibble (head0 (s.take 4)) 0 == 0xF#4) = true := by
    rw [head0_take (by omega)]
    simp [h.2]
  have ha' : (U32.nibble (head0 [a, b, c, e]) 0 == 0xF#4) = true := by
    show (U32.nibble a 0 == 0xF#4) = true
    simp [ha]
  simp only [e1, List.takeWhile_cons, ha', if_true]
  obtain ⟨T, hT, hT'⟩ : ∃ T, (chunksExact 4 s).takeWhile
      (fun p : List (BitVec 32) => U32.nibble (head0 p) 0 == 0xF#4) = s.take 4 :: T ∧
      s.take 4 :: T <+: chunksExact 4 s := by
    refine ⟨(chunksExact 4 (s.drop 4)).takeWhile
      (fun p : List (BitVec 32) => U32.nibble (head0 p) 0 == 0xF#4), ?_, ?_⟩
    · rw [hs, List.takeWhile_cons, hn]; rfl
    · rw [hs]
      exact (List.prefix_cons_inj _).mpr (List.takeWhile_prefix _)
  rw [hT]
  simp only [setFormatPackets]
  have hlen : (setFormatLoop (s.take 4 :: T)).length = (s.take 4 :: T).length := by
    have := congrArg List.length (setFormatLoop_length (s.take 4 :: T))
    rwa [List.length_map, List.length_map] at this
  refine ⟨onChunksExact 4 s fun cs => setFormatLoop (s.take 4 :: T) ++ cs.drop (s.take 4 :: T).length,
    ?_, ?_⟩
  · rw [onChunks_cons (k := 4) (by omega) [a, b, c, e] s rfl _
      (modifyHead0 (fun w => U32.setCrumb w 2 1) [a, b, c, e])
      (fun cs => setFormatLoop (s.take 4 :: T) ++ cs.drop (s.take 4 :: T).length)
      (by simp only [List.length_cons, List.drop_succ_cons, List.cons_append, hlen])]
    rfl
  · unfold onChunksExact
    obtain ⟨R, hR⟩ := hT'
    have h1 : ((setFormatLoop (s.take 4 :: T) ++
        (chunksExact 4 s).drop (s.take 4 :: T).length).flatten).length =
        ((chunksExact 4 s).flatten).length := by
      conv => rhs; rw [← hR]
      rw [← hR, List.drop_left, List.length_flatten, List.length_flatten, List.map_append,
        List.map_append, setFormatLoop_length]
    have h2 := congrArg List.length (chunksExact_flatten (show 0 < 4 by omega) s)
    rw [List.length_append, h1, h2, List.length_take, List.length_drop]
    omega

/-- The front of a new stream message in front of another stream packet. -/
def noisyFront (t : BitVec 16) (a b c : BitVec 32) : List (BitVec 32) :=
  [U32.setCrumb (setStreamStatus t 0xF0000000) 2 1, a, b, c]

theorem noisy_init {d : MsgDesc} (hd : d ∈ Msg.streamAll) (a b c : BitVec 32)
    {s : List (BitVec 32)} (h : Noisy s) :
    ∃ t rest, d.props = ("ump_type", .umpType 0xF) :: ("status", .streamStatus t) ::
        ("consistent_formats", .streamFormats) :: rest ∧ t.toNat < 1024 ∧
      (∀ q ∈ rest, q.2.walks = false) ∧
      ∃ s', s'.length = s.length ∧ initProps .ump d.props ([0, a, b, c] ++ s) =
        initProps .ump rest (noisyFront t a b c ++ s') := by
  have key : ∀ t rest, d.props = ("ump_type", .umpType 0xF) :: ("status", .streamStatus t) ::
      ("consistent_formats", .streamFormats) :: rest → t.toNat < 1024 →
      U32.nibble (setStreamStatus t 0xF0000000) 0 = 0xF#4 →
      (∀ q ∈ rest, q.2.walks = false) →
      ∃ t rest, d.props = ("ump_type", .umpType 0xF) :: ("status", .streamStatus t) ::
        ("consistent_formats", .streamFormats) :: rest ∧ t.toNat < 1024 ∧
      (∀ q ∈ rest, q.2.walks = false) ∧
      ∃ s', s'.length = s.length ∧ initProps .ump d.props ([0, a, b, c] ++ s) =
        initProps .ump rest (noisyFront t a b c ++ s') := by
    intro t rest e ht hn hw
    refine ⟨t, rest, e, ht, hw, ?_⟩
    obtain ⟨s1, a1, a2, a3⟩ := noisy_status h ht 0xF0000000 a b c
    obtain ⟨s2, b1, b2⟩ := noisy_formats a3 hn a b c
    refine ⟨s2, by omega, ?_⟩
    rw [e]
    have e0 : Fld.write .ump (.umpType 0xF) ([0, a, b, c] ++ s) () =
      .ok ([0xF0000000, a, b, c] ++ s) := rfl
    simp only [initProps, Fld.default, e0, Res.ok_bind, a1, b1]
    rfl
  simp only [Msg.streamAll, List.mem_cons, List.not_mem_nil, or_false] at hd
  rcases hd with rfl | rfl | rfl | rfl | rfl | rfl | rfl | rfl | rfl <;>
    exact key _ _ rfl (by decide) (by decide) (by decide)

/-- A single packet of a stream message that is not marked as complete is refused. -/
theorem incomplete_refused {d : MsgDesc} (hd : d ∈ Msg.all) {y : Buf .ump} (hl : y.length ≤ 4)
    (h15 : fieldAt y 0 0 4 = some 15) (h0 : fieldAt y 0 4 2 ≠ some 0) :
    d.tryFrom .ump y = .err .invalidData := by
  refine (C07_ump_accepts_exactly hd y).2 fun hw => h0 ?_
  obtain ⟨n, hn⟩ := streamFormats_mem hd hw h15
  have hL : SeqOk _ := hw.2 _ hn
  match y, hl with
  | w :: r, hl =>
    have e1 : packetHeads 4 (w :: r) = [w] := by
      unfold packetHeads
      rw [show ((w :: r).length + 4 - 1) / 4 = 1 by rw [List.length_cons] at hl ⊢; omega]
      rfl
    have h15 : field w 0 4 = 15 := Option.some.inj h15
    rw [e1] at hL
    simp [h15] at hL
    rcases hL with h | ⟨n, h⟩
    · exact congrArg some (by simpa using h)
    · cases n <;> simp at h

/-- What the front of a new stream message in front of another stream packet reads as. -/
def noisyOk (d : MsgDesc) : Bool :=
  match d.props with
  | _ :: (_, .streamStatus t) :: _ :: rest =>
    match initProps .ump rest (noisyFront t 0 0 0) with
    | .ok p => decide (p.length = 4) && decide (fieldAt p 0 0 4 = some 15) &&
        decide (fieldAt p 0 4 2 = some 1) &&
        d.props.all fun q => !q.2.accessible .ump || decide (q.2.read .ump p = .ok q.2.freshValue)
    | _ => false
  | _ => false

theorem table_noisy : Msg.streamAll.all noisyOk = true := by decide +kernel

theorem fieldAt_append {p s : List (BitVec 32)} {i : Nat} (h : i < p.length) (a w : Nat) :
    fieldAt (p ++ s) i a w = fieldAt p i a w := by
  unfold fieldAt
  rw [List.getElem?_append_left h]

/-- C08 over fixed UMP buffers, exactly: in a buffer that is too short `try_new_with_buffer`
fails; for `FunctionBlockDiscovery` it panics with one to three words.  Otherwise it gives a
message of the length of the buffer in which every getter returns its default; it is a valid one
exactly if the type is no stream message or no whole stream packet follows at word four. -/
theorem C08_fixed_ump_exactly {d : MsgDesc} (hd : d ∈ Msg.all) (b : Buf .ump) :
    (b.length < d.umpSize → d.tryNewWithBuffer .ump b = .err .bufferOverflow) ∧
    (d.umpSize ≤ b.length → b.length < d.room → d.tryNewWithBuffer .ump b = .panic) ∧
    (d.room ≤ b.length → ∃ x, d.tryNewWithBuffer .ump b = .ok x ∧ x.length = b.length ∧
      (∀ n f, (n, f) ∈ d.props → f.accessible .ump = true → f.read .ump x = .ok f.freshValue) ∧
      (d.Fresh .ump x ↔ ¬ (d ∈ Msg.streamAll ∧ 8 ≤ b.length ∧ fieldAt b 4 0 4 = some 15)) ∧
      (¬ d.Fresh .ump x → ∃ y, d.data .ump x = .ok y ∧ d.tryFrom .ump y = .err .invalidData)) := by
  have hmin : ∀ d ∈ Msg.all, d.umpSize ≤ d.room := by decide +kernel
  have hmin := hmin d hd
  refine ⟨(C08_fixed_too_short d .ump b 0).1, fun h1 h2 => ?_, fun hl => ?_⟩
  · have hn : d.name = "ump_stream::FunctionBlockDiscovery" := by
      by_cases h : d.name = "ump_stream::FunctionBlockDiscovery"
      · exact h
      · unfold MsgDesc.room at h2
        rw [if_neg h] at h2
        omega
    have hdd : d = Msg.streamFunctionBlockDiscovery := by
      have : ∀ d ∈ Msg.all, d.name = "ump_stream::FunctionBlockDiscovery" →
          d = Msg.streamFunctionBlockDiscovery := by decide +kernel
      exact this d hd hn
    subst hdd
    have h1 : 1 ≤ b.length := h1
    have h2 : b.length < 4 := h2
    have key : ∀ t : Buf .ump, t.length < 3 →
        initProps .ump Msg.streamFunctionBlockDiscovery.props (0 :: t) = .panic := by
      intro t ht
      have hs : ∀ w : BitVec 32, chunksExact 4 (w :: t) = [] := fun w =>
        chunksExact_short (by rw [List.length_cons]; omega)
      have e1 : Fld.write .ump (.umpType 0xF) (0 :: t) () = .ok (0xF0000000 :: t) := rfl
      have e2 : Fld.write .ump (.streamStatus 0x10) (0xF0000000 :: t) () =
          .ok (0xF0000000 :: t) := by
        show Res.ok (onChunksExact 4 _ _) = _
        unfold onChunksExact
        rw [hs, Nat.div_eq_of_lt (by rw [List.length_cons]; omega)]
        rfl
      have e3 : Fld.write .ump .streamFormats (0xF0000000 :: t) () = .panic := by
        show setFormatFields _ = _
        unfold setFormatFields
        simp only [hs, List.takeWhile_nil, setFormatPackets]
      simp only [Msg.streamFunctionBlockDiscovery, initProps, Fld.default, e1, e2, e3, Res.ok_bind]
      rfl
    match b, h1, h2 with
    | w :: t, _, h2 =>
      unfold MsgDesc.tryNewWithBuffer fixedTryResize
      rw [if_neg (show ¬ Msg.streamFunctionBlockDiscovery.minSize .ump > (w :: t).length by
        show ¬ 1 > (w :: t).length
        omega)]
      exact key t (by rw [List.length_cons] at h2; omega)
  · have nib4 : 4 < b.length →
        (fieldAt b 4 0 4 = some 15 ↔ U32.nibble (head0 (b.drop 4)) 0 = 0xF#4) := by
      intro h
      have e : head0 (b.drop 4) = b[4] := by
        rw [List.drop_eq_getElem_cons h]; rfl
      unfold fieldAt
      rw [List.getElem?_eq_getElem h, e]
      have := nibble_field b[4] (i := 0) (by omega)
      constructor
      · intro h
        have h : field b[4] 0 4 = 15 := Option.some.inj h
        exact BitVec.eq_of_toNat_eq (this.trans h)
      · intro h
        rw [h] at this
        exact congrArg some this.symm
    by_cases hq : d ∈ Msg.streamAll ∧ 8 ≤ b.length ∧ fieldAt b 4 0 4 = some 15
    · obtain ⟨hs, h8, h15⟩ := hq
      have hmin' : d.umpSize ≤ b.length := Nat.le_trans hmin hl
      have hfit := List.all_eq_true.mp table_ump_fits d hd
      have hsmall := List.all_eq_true.mp (List.all_eq_true.mp table_smallStatus d hd)
      have hno : Noisy (b.drop 4) := by
        refine ⟨by rw [List.length_drop]; omega, ?_⟩
        exact (nib4 (by omega)).mp h15
      have hres : d.tryNewWithBuffer .ump b =
          initProps .ump d.props (List.replicate d.umpSize 0 ++ b.drop d.umpSize) := by
        unfold MsgDesc.tryNewWithBuffer fixedTryResize
        rw [if_neg (show ¬ d.minSize .ump > b.length from by show ¬ d.umpSize > b.length; omega)]
        rfl
      have hsz : ∀ d ∈ Msg.streamAll, d.umpSize = 4 ∨ d = Msg.streamFunctionBlockDiscovery := by
        decide +kernel
      -- the initialised front
      have front : ∃ p s', d.tryNewWithBuffer .ump b = .ok (p ++ s') ∧ p.length = 4 ∧
          s'.length + 4 = b.length ∧ fieldAt p 0 0 4 = some 15 ∧ fieldAt p 0 4 2 = some 1 ∧
          ∀ n f, (n, f) ∈ d.props → f.accessible .ump = true → f.read .ump p = .ok f.freshValue := by
        have app : ∀ a b' c p, List.replicate d.umpSize 0 ++ b.drop d.umpSize =
              [0, a, b', c] ++ b.drop 4 →
            (∀ t rest, d.props = ("ump_type", .umpType 0xF) :: ("status", .streamStatus t) ::
              ("consistent_formats", .streamFormats) :: rest →
              initProps .ump rest (noisyFront t a b' c) = .ok p) →
            ∃ s', d.tryNewWithBuffer .ump b = .ok (p ++ s') ∧ p.length = 4 ∧
              s'.length + 4 = b.length := by
          intro a b' c p e hp
          obtain ⟨t, rest, r1, _, r3, s', r4, r5⟩ := noisy_init hs a b' c hno
          have hp := hp t rest r1
          obtain ⟨s'', i1, i2, i3, _⟩ := initProps_app rest
            (fun q hq => hsmall q (by rw [r1]; simp [hq]))
            (p := noisyFront t a b' c) (p' := p) (s := s')
            (fun ⟨q, q1, q2⟩ => by rw [r3 q q1] at q2; cases q2) hp
          refine ⟨s'', by rw [hres, e, r5, i1], i3, ?_⟩
          rw [i2, r4, List.length_drop]; omega
        rcases hsz d hs with h4 | rfl
        · have hN := List.all_eq_true.mp table_noisy d hs
          obtain ⟨t, rest, r1, -⟩ := noisy_init hs 0 0 0 hno
          unfold noisyOk at hN
          simp only [r1] at hN
          split at hN
          · rename_i p hp
            rw [← r1] at hN
            simp only [Bool.and_eq_true, decide_eq_true_eq] at hN
            obtain ⟨⟨⟨n1, n2⟩, n3⟩, n4⟩ := hN
            obtain ⟨s', a1, a2, a3⟩ := app 0 0 0 p (by rw [h4]; rfl) (by
              intro t' rest' r
              rw [r1] at r
              simp only [List.cons.injEq, Prod.mk.injEq, true_and, Fld.streamStatus.injEq] at r
              rw [← r.1, ← r.2]
              exact hp)
            refine ⟨p, s', a1, a2, a3, n2, n3, fun n f hf ha => ?_⟩
            have := List.all_eq_true.mp n4 (n, f) hf
            simpa [ha] using this
          · cases hN
        · match b, h8 with
          | w :: x :: y :: z :: s, _ =>
            obtain ⟨s', a1, a2, a3⟩ := app x y z [0xF4100000, x, y, z] rfl (by
              intro t' rest' r
              simp only [Msg.streamFunctionBlockDiscovery, List.cons.injEq, Prod.mk.injEq, true_and,
                Fld.streamStatus.injEq] at r
              rw [← r.1, ← r.2]
              rfl)
            refine ⟨_, s', a1, a2, a3, by rfl, by rfl, fun n f hf ha => ?_⟩
            simp only [Msg.streamFunctionBlockDiscovery, List.mem_cons, Prod.mk.injEq,
              List.not_mem_nil, or_false] at hf
            rcases hf with ⟨_, rfl⟩ | ⟨_, rfl⟩ | ⟨_, rfl⟩ | ⟨_, rfl⟩ | ⟨_, rfl⟩ | ⟨_, rfl⟩ <;>
              first | rfl | cases ha
      obtain ⟨p, s', f1, f2, f3, f4, f5, f6⟩ := front
      have hx : (p ++ s').length = b.length := by rw [List.length_append]; omega
      have hdef : ∀ n f, (n, f) ∈ d.props → f.accessible .ump = true →
          f.read .ump (p ++ s') = .ok f.freshValue := by
        intro n f hf ha
        have h4 : ∀ d ∈ Msg.all, d.umpSize ≤ 4 := by decide +kernel
        rw [Fld.read_append (MsgDesc.fits_mem hfit hf) (by have := h4 d hd; omega) s']
        exact f6 n f hf ha
      have hdata : d.data .ump (p ++ s') = .ok ((p ++ s').take d.umpSize) :=
        data_ok (m := .ump) (d := d) (show d.umpSize ≤ (p ++ s').length by omega)
      have href : d.tryFrom .ump ((p ++ s').take d.umpSize) = .err .invalidData := by
        have hpos : ∀ d ∈ Msg.all, 0 < d.umpSize ∧ d.umpSize ≤ 4 := by decide +kernel
        have hpos := hpos d hd
        refine incomplete_refused hd (by rw [List.length_take]; omega) ?_ ?_
        · rw [fieldAt_take _ (by omega), fieldAt_append (by omega)]; exact f4
        · rw [fieldAt_take _ (by omega), fieldAt_append (by omega), f5]; decide
      have hnf : ¬ d.Fresh .ump (p ++ s') := by
        intro hF
        obtain ⟨y, y1, y2⟩ := hF.valid
        rw [hdata] at y1
        cases y1
        rw [href] at y2
        cases y2
      exact ⟨p ++ s', f1, hx, hdef, ⟨fun h => absurd h hnf, fun h => absurd ⟨hs, h8, h15⟩ h⟩,
        fun _ => ⟨_, hdata, href⟩⟩
    · obtain ⟨x, h1, h2, h3, _⟩ := C08_fixed_ump_partial hd b hl (by
        intro hs h4 hn
        have h8 : 8 ≤ b.length := by rw [List.length_drop] at h4; omega
        exact hq ⟨hs, h8, (nib4 (by omega)).mpr hn⟩)
      exact ⟨x, h1, h2, h3.defaults, ⟨fun _ => hq, fun _ => h3⟩, fun h => absurd h3 h⟩

/-! ## Non-vacuity -/

/-- A buffer with another stream packet behind: `EndpointDiscovery` made in it has its defaults,
but is not a valid message. -/
example : ∃ x, Msg.streamEndpointDiscovery.tryNewWithBuffer .ump
      [1, 2, 3, 4, 0xF0000101, 6, 7, 8] = .ok x ∧
    ¬ Msg.streamEndpointDiscovery.Fresh .ump x := by
  obtain ⟨x, h1, _, _, h4, _⟩ := (C08_fixed_ump_exactly (d := Msg.streamEndpointDiscovery)
    (by simp [Msg.all, Msg.streamAll]) [1, 2, 3, 4, 0xF0000101, 6, 7, 8]).2.2 (by decide)
  exact ⟨x, h1, fun h => h4.mp h ⟨by simp [Msg.streamAll], by decide, by decide⟩⟩
example : Msg.streamFunctionBlockDiscovery.tryNewWithBuffer .ump [1, 2, 3] = .panic :=
  (C08_fixed_ump_exactly (d := Msg.streamFunctionBlockDiscovery)
    (by simp [Msg.all, Msg.streamAll]) [1, 2, 3]).2.1 (by decide) (by decide)

end Midi2
