import Verif.Spec.Programs
import Verif.Props.Sysex
import Verif.Props.SysexBytes
import Verif.Props.Dispatch
import Verif.Props.Layout

/-!
# C58: the fuzz targets and example programs of the repository

A fuzz target fails when it panics.  The theorems say that no input makes it do so.
-/

namespace Midi2

open Sx

/-! ## Fuzz targets -/

/-- C58: the fuzz targets `sysex7_payload_roundtrip` and `sysex8_payload_roundtrip` pass for
every input. -/
theorem C58_payload_roundtrip (k : Sx) (dbg : Bool) (data : List (BitVec 8)) :
    Fuzz.payloadRoundtrip k dbg data = .ok () := by
  obtain ⟨b, e, S⟩ := newVec_strict k dbg
  obtain ⟨b', e', S'⟩ := exec_strict S (.setPayload (Fuzz.src k data)) trivial
  have e' : (k.ops dbg .vec).setPayload b (Fuzz.src k data) = .ok b' := e'
  have hp : k.payloadList b' = .ok (data.map (Fuzz.byte k)) := S'.holds.payload
  obtain ⟨d, h1, h2⟩ := S'.accepted
  unfold Fuzz.payloadRoundtrip
  rw [e, Res.ok_bind, e', Res.ok_bind, hp, Res.ok_bind, h1]
  simp [Res.assert, h2, Res.unwrap]

example : Fuzz.payloadRoundtrip .s7 true [1, 0x82, 3, 4, 5, 6, 7] = .ok () := by decide +kernel

theorem map_spliced {α β : Type} (f : α → β) (l new : List α) (lo hi : Nat) :
    spliced (l.map f) lo hi (new.map f) = (l.take lo ++ new ++ l.drop hi).map f := by
  unfold spliced
  simp

/-- The last part of a test case passes if the splice is the splice of lists. -/
theorem spliceCase_ok {S : Type} {k : Sx} {ops : SxOps S k.Byte} {pl : S → Res (List k.Byte)}
    {s : S} {initial insert : List (BitVec 8)} {lo hi : Nat} (h1 : lo ≤ hi)
    (h2 : hi ≤ initial.length)
    (h : ∃ s', (ops.trySplice s (Fuzz.src k insert) (.included lo) (.excluded hi) = .ok (s', none) ∧
        pl s' = .ok (spliced (initial.map (Fuzz.byte k)) lo hi (insert.map (Fuzz.byte k)))) ∨
      ∃ e, ops.trySplice s (Fuzz.src k insert) (.included lo) (.excluded hi) = .ok (s', some e)) :
    Fuzz.spliceCase k ops pl s initial insert lo hi = .ok () := by
  unfold Fuzz.spliceCase
  obtain ⟨s', ⟨e, hp⟩ | ⟨x, e⟩⟩ := h
  · rw [e, Res.ok_bind]
    simp only
    rw [hp, Res.ok_bind]
    unfold Fuzz.vecSplice
    simp only [h1, h2, decide_true, Bool.and_self, Res.assert, if_true, Res.ok_bind, Res.pure_eq,
      map_spliced, beq_self_eq_true]
  · rw [e, Res.ok_bind]; rfl

theorem testCase_ok {S : Type} {k : Sx} {ops : SxOps S k.Byte} {pl : S → Res (List k.Byte)}
    {s : S} {initial insert : List (BitVec 8)} {lo hi : Nat}
    (h : ∃ s', (ops.trySetPayload s (Fuzz.src k initial) = .ok (s', none) ∧
        pl s' = .ok (initial.map (Fuzz.byte k)) ∧
        Fuzz.spliceCase k ops pl s' initial insert lo hi = .ok ()) ∨
      ∃ e, ops.trySetPayload s (Fuzz.src k initial) = .ok (s', some e)) :
    Fuzz.testCase k ops pl s initial insert lo hi = .ok () := by
  unfold Fuzz.testCase
  obtain ⟨s', ⟨e, hp, hc⟩ | ⟨x, e⟩⟩ := h
  · rw [e, Res.ok_bind]
    simp only
    rw [hp, Res.ok_bind]
    simp [Res.assert, hc]
  · rw [e, Res.ok_bind]; rfl

theorem tryNewWithBuffer_zeros (k : Sx) {n : Nat} (hn : k.stride ≤ n) :
    k.tryNewWithBuffer (List.replicate n 0) = k.newArray n := by
  have hz : zeroPrefix (List.replicate n (0 : BitVec 32)) k.stride = List.replicate n 0 := by
    unfold zeroPrefix
    rw [List.drop_replicate, List.replicate_append_replicate]
    congr 1; omega
  unfold tryNewWithBuffer newArray fixedTryResize
  rw [if_neg (by simp; omega), if_neg (by omega), Res.ok_bind, hz]

theorem ump_case (k : Sx) (dbg : Bool) {n lo hi : Nat} (hn : k.stride ≤ n)
    (initial insert : List (BitVec 8)) (h1 : lo ≤ hi) (h2 : hi ≤ initial.length) :
    ∃ b, (k.tryNewWithBuffer (List.replicate n 0)).unwrap = .ok b ∧
      Fuzz.testCase k (k.ops dbg .fixed) k.payloadList b initial insert lo hi = .ok () := by
  obtain ⟨b, e, _, S⟩ := newArray_strict k dbg hn
  refine ⟨b, by rw [tryNewWithBuffer_zeros k hn, e]; rfl, testCase_ok ?_⟩
  have hI := inv_zeroId k (fixed := true)
  have hIg := fun b g => zeroId_setGroup (k := k) (b := b) (g := g)
  obtain ⟨b1, e1, S1⟩ := try_exec_strict hI hIg hn S (.setPayload (Fuzz.src k initial)) trivial
  refine ⟨b1, ?_⟩
  unfold SxTryCall.apply at e1 S1
  simp only at e1 S1
  split at e1
  · rename_i hf
    rw [if_pos hf] at S1
    have hp : k.payloadList b1 = .ok (initial.map (Fuzz.byte k)) := S1.holds.payload
    refine .inl ⟨e1, hp, spliceCase_ok h1 h2 ?_⟩
    obtain ⟨b2, e2, S2⟩ := try_exec_strict hI hIg hn S1
      (.splicePayload (Fuzz.src k insert) (.included lo) (.excluded hi))
      ⟨h1, by simpa [SxTryCall.wanted, Fuzz.src, Bound.last] using h2, .inr (by simp [Fuzz.src])⟩
    refine ⟨b2, ?_⟩
    unfold SxTryCall.apply at e2 S2
    simp only at e2 S2
    split at e2
    · rename_i hf2
      rw [if_pos hf2] at S2
      exact .inl ⟨e2, S2.holds.payload⟩
    · exact .inr ⟨_, e2⟩
  · exact .inr ⟨_, e1⟩

theorem bytes_case {n lo hi : Nat} (hn : 2 ≤ n)
    (initial insert : List (BitVec 8)) (h1 : lo ≤ hi) (h2 : hi ≤ initial.length) :
    ∃ b, (Sxb.tryNewWithBuffer (List.replicate n 0)).unwrap = .ok b ∧
      Fuzz.testCase .s7 (Sxb.ops .fixed) Sxb.payloadList b initial insert lo hi = .ok () := by
  have e := (C08_sysex7_bytes (List.replicate n 0) 0).2.2.2.1 (by simpa using hn)
  refine ⟨_, by rw [e]; rfl, testCase_ok ?_⟩
  have key := Sxb.trySetPayload_exact (p := []) (rest := (List.replicate n (0 : BitVec 8)).drop 2)
    (by simp) (Fuzz.src .s7 initial) (by simp [Src.estimate, Fuzz.src])
  have hraw := raw_eq [] ((List.replicate n (0 : BitVec 8)).drop 2)
  simp only [List.map_nil] at hraw
  rw [hraw] at key
  rcases Nat.lt_or_ge (([] : List (BitVec 8)).length + ((List.replicate n (0 : BitVec 8)).drop 2).length)
    (Fuzz.src .s7 initial).items.length with h | h
  · obtain ⟨r, e1, _⟩ := key.2 h
    exact ⟨_, .inr ⟨_, e1⟩⟩
  · obtain ⟨r, e1, _, hr⟩ := key.1 h
    have hr := hr rfl
    rw [raw_eq] at e1
    refine ⟨_, .inl ⟨e1, (holdsBytes _ r).payload, spliceCase_ok h1 h2 ?_⟩⟩
    obtain ⟨b', rest, _, h | h⟩ := C22_bytes_try_splice_partial _ (Fuzz.src .s7 initial).items r rfl
      (by
        intro x hx
        rw [hr] at hx
        have := List.eq_of_mem_replicate (List.mem_of_mem_drop (List.mem_of_mem_drop hx))
        rw [this]; decide)
      (Fuzz.src .s7 insert) (.included lo) (.excluded hi) h1
      (by simpa [Bound.last, Fuzz.src] using h2) (.inr (by simp [Fuzz.src]))
    · obtain ⟨_, e2, e3⟩ := h
      exact ⟨b', .inl ⟨e2, by rw [e3]; exact (holdsBytes _ rest).payload⟩⟩
    · exact ⟨b', .inr ⟨_, h.2.1⟩⟩

/-- C58: the fuzz target `generic_sysex_splicing_payloads` passes for every input, for every
size and range its random generator may draw. -/
theorem C58_splicing (dbg : Bool) (size lo hi : Nat) (initial insert : List (BitVec 8))
    (hs : 4 ≤ size) (h1 : lo ≤ hi) (h2 : hi ≤ initial.length) :
    Fuzz.splicing dbg size lo hi initial insert = .ok () := by
  obtain ⟨b8, e8, t8⟩ := ump_case .s8 dbg hs initial insert h1 h2
  obtain ⟨b7, e7, t7⟩ := ump_case .s7 dbg (n := size) (show 2 ≤ size by omega) initial insert h1 h2
  obtain ⟨bb, eb, tb⟩ := bytes_case (n := size) (by omega) initial insert h1 h2
  unfold Fuzz.splicing
  rw [e8, Res.ok_bind, t8, Res.ok_bind, e7, Res.ok_bind, t7, Res.ok_bind, eb, Res.ok_bind, tb]

-- C58: a splice that fits and one that does not.
example : Fuzz.splicing true 8 1 3 [1, 2, 3, 0x84] [9, 9, 9, 9] = .ok () ∧
    Fuzz.splicing true 4 0 0 [1, 2, 3] (List.replicate 40 1) = .ok () := by decide +kernel

-- A test case can fail: a range outside of the data.
example : Fuzz.splicing true 8 3 1 [1, 2, 3, 0x84] [9] = .panic := by decide +kernel

/-! ## `no_std_dynamic_message_generator` -/

/-- C58: whatever the generator's buffer holds when `generate` is called, the result is the
same four messages. -/
theorem C58_generator (b : Buf .bytes) (hb : b.length = 128) :
    Generator.generate b = .ok [
      (.fixed Msg.cv1ChannelPressure, [0xD0, 0x50]),
      (.fixed Msg.cv1NoteOn, [0x90, 0x38, 0x20]),
      (.fixed Msg.cv1ControlChange, [0xB0, 0x34, 0x2A]),
      (.sysex7, [0xF0, 0, 1, 2, 3, 4, 5, 6, 7, 8, 9, 10, 11, 12, 13, 14, 15, 16, 17, 18, 19,
        0xF7])] := by
  obtain ⟨x0, x1, hx⟩ : ∃ x0 x1, b.take 2 = [x0, x1] := by
    match b, hb with
    | x0 :: x1 :: t, _ => exact ⟨x0, x1, rfl⟩
  obtain ⟨y0, y1, y2, hy⟩ : ∃ y0 y1 y2, (b.drop 2).take 3 = [y0, y1, y2] := by
    match b, hb with
    | _ :: _ :: y0 :: y1 :: y2 :: t, _ => exact ⟨y0, y1, y2, rfl⟩
  obtain ⟨z0, z1, z2, hz⟩ : ∃ z0 z1 z2, (b.drop 5).take 3 = [z0, z1, z2] := by
    match b, hb with
    | _ :: _ :: _ :: _ :: _ :: z0 :: z1 :: z2 :: t, _ => exact ⟨z0, z1, z2, rfl⟩
  have hl : ((b.drop 8).take 22).length = 22 := by simp; omega
  have hs : Generator.sysex ((b.drop 8).take 22) = .ok [0xF0, 0, 1, 2, 3, 4, 5, 6, 7, 8, 9, 10,
      11, 12, 13, 14, 15, 16, 17, 18, 19, 0xF7] := by
    generalize (b.drop 8).take 22 = c at hl
    have e := (C08_sysex7_bytes c 0).2.2.2.1 (by omega)
    have hraw := raw_eq [] (c.drop 2)
    have key := (Sxb.trySetPayload_exact (p := []) (rest := c.drop 2) (by simp)
      ⟨(List.range 20).map (BitVec.ofNat 7), 20, some 20⟩ (by simp [Src.estimate])).1
      (by simp [hl])
    obtain ⟨r, e1, hr, _⟩ := key
    have hr : r = [] := by
      simpa [hl] using hr
    subst hr
    simp only [List.map_nil] at hraw
    rw [hraw] at e1
    unfold Generator.sysex
    rw [e, Res.ok_bind, e1]
    rfl
  unfold Generator.generate
  rw [hx, hy, hz, hs]
  rfl

-- C58: a generator that was used before gives the same as a new one.
example : Generator.generate (List.replicate 128 0xF7) = Generator.generate (List.replicate 128 0) := by
  decide +kernel

/-! ## `handling_messages` -/

theorem Handler.tryFrom_cases (b : Buf .ump) :
    (∃ e, Handler.tryFrom b = .err e) ∨
    (∃ d, d ∈ Msg.cv2All ∧ d.tryFrom .ump b = .ok b ∧ Handler.tryFrom b = .ok (.fixed d, b)) ∨
    (Sx.s7.tryFrom b = .ok b ∧ Handler.tryFrom b = .ok (.sysex .s7, b)) := by
  unfold Handler.tryFrom
  by_cases hb : b = []
  · rw [if_pos (by rw [hb]; rfl)]; exact .inl ⟨_, rfl⟩
  rw [if_neg (by simpa using hb), at'_lt (head_ne hb), Res.ok_bind]
  simp only
  generalize (U32.nibble _ 0).toNat = t
  by_cases h4 : t = 4
  · subst h4
    rw [if_pos (.inl rfl)]
    show (∃ e, (ChannelVoice2.tryFrom b >>= fun x => pure (asUmp x)) = .err e) ∨
      (∃ d, _ ∧ _ ∧ (ChannelVoice2.tryFrom b >>= fun x => pure (asUmp x)) = _) ∨
      (_ ∧ (ChannelVoice2.tryFrom b >>= fun x => pure (asUmp x)) = _)
    rcases cv2_total b with ⟨d, h⟩ | ⟨e, h⟩
    · obtain ⟨h1, h2, _⟩ := (C10_channel_voice2 d b b).mp h
      rw [h]
      exact .inr (.inl ⟨d, h1, h2, rfl⟩)
    · rw [h]; exact .inl ⟨e, rfl⟩
  · by_cases h3 : t = 3
    · subst h3
      rw [if_pos (.inr rfl)]
      show (∃ e, (Sx.s7.tryFrom b >>= fun x => pure (UmpKind.sysex .s7, x)) = .err e) ∨
        (∃ d, _ ∧ _ ∧ (Sx.s7.tryFrom b >>= fun x => pure (UmpKind.sysex .s7, x)) = _) ∨
        (_ ∧ (Sx.s7.tryFrom b >>= fun x => pure (UmpKind.sysex .s7, x)) = _)
      rcases C05_sysex_total .s7 b with h | h
      · rw [h]; exact .inr (.inr ⟨rfl, rfl⟩)
      · rw [h]; exact .inl ⟨_, rfl⟩
    · rw [if_neg (by omega)]; exact .inl ⟨_, rfl⟩

theorem Handler.tryFrom_same {b : Buf .ump} {t : Nat} (h : fieldAt b 0 0 4 = some t)
    (ht : t = 4 ∨ t = 3) : Handler.tryFrom b = UmpMessage.tryFrom b := by
  have hb : b ≠ [] := by rintro rfl; cases h
  obtain ⟨c, h1, h2⟩ := nibble_view b 0 (by omega) hb
  have : c = t := Option.some.inj (h2.symm.trans h)
  subst this
  unfold Handler.tryFrom UmpMessage.tryFrom
  rw [if_neg (by simpa using hb), if_neg (by simpa using hb)]
  rw [at'_lt (head_ne hb), Res.ok_bind] at h1 ⊢
  have h1 : (U32.nibble (b[0]'(head_ne hb)) 0).toNat = c := by injection h1
  rw [Res.ok_bind, h1, if_pos ht]

/-- Nothing that can be handled is reported as an error. -/
theorem Handler.refused {b : Buf .ump} {e : Error} (h : Handler.tryFrom b = .err e) :
    (∀ d ∈ Msg.cv2All, d.tryFrom .ump b ≠ .ok b) ∧ Sx.s7.tryFrom b ≠ .ok b := by
  have key : ∀ (k : UmpKind) (hd : Header), (k, hd) ∈ umpTable → k.room = 0 → k ∉ misfiled →
      hd.type = 4 ∨ hd.type = 3 → k.tryFrom b ≠ .ok b := by
    intro k hd he hr hm ht hok
    have ho := accepted_header he (by omega) hok
    rw [Handler.tryFrom_same ho.1 ht, (C10_ump_dispatch_partial he hm b (fun hk => by
      rw [hk] at hr; cases hr)).mpr hok] at h
    cases h
  constructor
  · intro d hd
    have : ∀ d ∈ Msg.cv2All, ∃ x ∈ umpTable, x.1 = .fixed d ∧ (UmpKind.fixed d).room = 0 ∧
        UmpKind.fixed d ∉ misfiled ∧ x.2.type = 4 := by decide +kernel
    obtain ⟨⟨_, hh⟩, h1, rfl, h2, h3, h4⟩ := this d hd
    exact key _ hh h1 h2 h3 (.inl h4)
  · have : ∃ x ∈ umpTable, x.1 = .sysex .s7 ∧ (UmpKind.sysex .s7).room = 0 ∧
        UmpKind.sysex .s7 ∉ misfiled ∧ x.2.type = 3 := by decide +kernel
    obtain ⟨⟨_, hh⟩, h1, rfl, h2, h3, h4⟩ := this
    exact key _ hh h1 h2 h3 (.inr h4)

theorem cv2_mem_all : ∀ d ∈ Msg.cv2All, d ∈ Msg.all ∧ ("channel", channel2Fld) ∈ d.props := by
  decide +kernel

theorem handled {f : Fld} {b : Buf .ump} {v : f.Ty} {w p n : Nat} (hc : f.isConst = false)
    (hs : f.umpBits.need ≤ b.length) (hp : f.pieces = [(w, p, n)]) (h : f.read .ump b = .ok v) :
    ∃ x, fieldAt b w p n = some x ∧ f.Denotes x v := by
  obtain ⟨x, h1, h2⟩ := Fld.read32_value f hc hs h
  rw [hp] at h1
  refine ⟨x, ?_, h2⟩
  unfold valueOf at h1
  cases e : fieldAt b w p n with
  | none => rw [e] at h1; cases h1
  | some y =>
    rw [e] at h1
    have h1 : some (0 * 2 ^ n + y) = some x := h1
    rw [Nat.zero_mul, Nat.zero_add] at h1
    exact h1

/-- The `channel()` line of a channel voice 2 message. -/
theorem handled_channel {d : MsgDesc} (hd : d ∈ Msg.cv2All) {b : Buf .ump}
    (h : d.tryFrom .ump b = .ok b) :
    ∃ c : BitVec 4, ChannelVoice2.channel (d, b) = .ok c ∧ fieldAt b 0 12 4 = some c.toNat := by
  obtain ⟨h1, h2⟩ := cv2_mem_all d hd
  obtain ⟨c, hc⟩ := (C06_fixed_ump_reads h1 b h).1 _ _ h2
  have hl := ((tryFrom_iff d .ump b).mp h).1
  have h0 : 2 ≤ b.length := by
    have : ∀ d ∈ Msg.cv2All, d.minSize .ump = 2 := by decide +kernel
    rw [this d hd] at hl; exact hl
  obtain ⟨x, e1, e2⟩ := handled (f := channel2Fld) rfl (show 1 ≤ b.length by omega) rfl hc
  refine ⟨c, ?_, ?_⟩
  · unfold ChannelVoice2.channel FixedEnum.read
    rw [if_pos h2]
    exact hc
  · have e2 : x = BitVec.toNat (w := 4) c := e2
    rw [← e2]; exact e1

/-- The note lines of `NoteOn` and `NoteOff`. -/
theorem handled_note {d : MsgDesc} (hd : d = Msg.cv2NoteOn ∨ d = Msg.cv2NoteOff) {b : Buf .ump}
    (h : d.tryFrom .ump b = .ok b) :
    ∃ (n : BitVec 7) (v : BitVec 16), Handler.note.read .ump b = .ok n ∧
      Handler.velocity.read .ump b = .ok v ∧
      fieldAt b 0 17 7 = some n.toNat ∧ fieldAt b 1 0 16 = some v.toNat := by
  have hm : d ∈ Msg.all ∧ ("note_number", Handler.note) ∈ d.props ∧
      ("velocity", Handler.velocity) ∈ d.props ∧ d.minSize .ump = 2 := by
    rcases hd with rfl | rfl <;> decide +kernel
  obtain ⟨h1, h2, h3, h4⟩ := hm
  have hr := (C06_fixed_ump_reads h1 b h).1
  obtain ⟨n, hn⟩ := hr _ _ h2
  obtain ⟨v, hv⟩ := hr _ _ h3
  have hl := ((tryFrom_iff d .ump b).mp h).1
  rw [h4] at hl
  have hl : 2 ≤ b.length := hl
  obtain ⟨x, e1, e2⟩ := handled (f := Handler.note) rfl (show 1 ≤ b.length by omega) rfl hn
  obtain ⟨y, e3, e4⟩ := handled (f := Handler.velocity) rfl (show 2 ≤ b.length by omega) rfl hv
  refine ⟨n, v, hn, hv, ?_, ?_⟩
  · have e2 : x = BitVec.toNat (w := 7) n := e2
    rw [← e2]; exact e1
  · have e4 : y = BitVec.toNat (w := 16) v := e4
    rw [← e4]; exact e3

/-- C58: `handle_message` prints what it should for every slice of words and does not panic.
Missing: sysex7 slices whose last packet is cut short, see
`C58_handle_message_violation`. -/
theorem C58_handle_message_partial (b : Buf .ump)
    (hu : Sx.s7.tryFrom b = .ok b → sysex7Layout.Untruncated b) :
    ∃ out, Handler.handle b = .ok out ∧ Handler.Prints b out := by
  unfold Handler.handle
  rcases Handler.tryFrom_cases b with ⟨e, h⟩ | ⟨d, hd, hok, h⟩ | ⟨hok, h⟩
  · rw [h]
    exact ⟨_, rfl, .inl ⟨rfl, Handler.refused h⟩⟩
  · obtain ⟨c, hc, hf⟩ := handled_channel hd hok
    rw [h]
    simp only
    rw [hc, Res.ok_bind]
    unfold Handler.notes
    by_cases h1 : d = Msg.cv2NoteOn
    · obtain ⟨n, v, e1, e2, e3, e4⟩ := handled_note (.inl h1) hok
      rw [if_pos h1, e1, Res.ok_bind, e2, Res.ok_bind]
      exact ⟨_, rfl, .inr (.inl ⟨d, hd, hok, c, _, rfl, hf, .inl ⟨n, v, e3, e4, .inl ⟨h1, rfl⟩⟩⟩)⟩
    · rw [if_neg h1]
      by_cases h2 : d = Msg.cv2NoteOff
      · obtain ⟨n, v, e1, e2, e3, e4⟩ := handled_note (.inr h2) hok
        rw [if_pos h2, e1, Res.ok_bind, e2, Res.ok_bind]
        exact ⟨_, rfl, .inr (.inl ⟨d, hd, hok, c, _, rfl, hf, .inl ⟨n, v, e3, e4, .inr ⟨h2, rfl⟩⟩⟩)⟩
      · rw [if_neg h2]
        exact ⟨_, rfl, .inr (.inl ⟨d, hd, hok, c, _, rfl, hf, .inr ⟨h1, h2, rfl⟩⟩)⟩
  · obtain ⟨g, sizes, M, _, l, e1, _, e2, _⟩ := C23_payload_of_accepted .s7 b hok (hu hok)
    rw [h]
    simp only
    rw [e1, Res.ok_bind]
    exact ⟨_, rfl, .inr (.inr ⟨g, sizes, l, M, rfl, e2.symm⟩)⟩

example : ∃ out, Handler.handle [0x30160001, 0x02030405, 0x30310600, 0] = .ok out ∧
    Handler.Prints [0x30160001, 0x02030405, 0x30310600, 0] out :=
  C58_handle_message_partial _ (fun _ => by show 2 * _ ≤ _; decide +kernel)

/-- C58 fails for a sysex7 slice that ends within a packet: `handle_message` panics. -/
theorem C58_handle_message_violation :
    ∃ b : Buf .ump, Sx.s7.tryFrom b = .ok b ∧ Handler.handle b = .panic :=
  ⟨[0x30160000, 0, 0x30300000], by decide +kernel⟩

-- C58: the calls of the example's `main`.
example : Handler.handle [0x48985E03, 0x6A14E98A] = .ok [.channel 8, .noteOn 0x5E 0x6A14] ∧
    Handler.handle [0x42884E01, 0x9DE6CC6E] = .ok [.channel 8, .noteOff 0x4E 0x9DE6] ∧
    Handler.handle [0xF0000101, 0x0000001F] = .ok [.error] ∧
    Handler.handle [0x30160001, 0x02030405, 0x30260607, 0x08090A0B, 0x30260C0D, 0x0E0F1011,
      0x30261213, 0x14151617, 0x30361819, 0x1A1B1C1D] =
      .ok [.sysex ((List.range 30).map (BitVec.ofNat 7))] := by decide +kernel

end Midi2
