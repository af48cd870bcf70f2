import Verif.Lemmas.Lens
import Verif.Props.Layout

/-!
# C56: setting a property is an assignment

The derived `PartialEq` of the messages compares buffers (generate_message.rs:246), so "the
same message" is equality of buffers here.
-/

namespace Midi2

/-- C56 (UMP): two histories of setter calls on the same message in which every property has
the same last call (or none) leave the very same words: the order of calls on different
properties does not matter and overwritten values leave no trace.  Partial: the last call
must not set the note attribute to `None`, see `C56_stale_attribute_violation`; and values the
setters do not store faithfully (C36, C38) are excluded by `SetCall.legal`. -/
theorem C56_ump_last_call_wins_partial {d : MsgDesc} (hd : d ∈ Msg.all) (b : Buf .ump)
    (hb : d.umpSize ≤ b.length) {cs cs' : List SetCall} (hc : ∀ c ∈ cs, c.legal d .ump)
    (hc' : ∀ c ∈ cs', c.legal d .ump) (hs : ∀ n, lastSet cs n = lastSet cs' n)
    (hna : ∀ n c, lastSet cs n = some c → c.clearsAttribute = false) :
    ∃ b', runSetters .ump cs b = .ok b' ∧ runSetters .ump cs' b = .ok b' :=
  history_eq (of_decide_eq_true (List.all_eq_true.mp table_names d hd)) (good_ump hd hb)
    (fun _ h1 h2 _ _ _ _ l1 l2 w1 w2 =>
      write_sameOn_ump hd h1 h2 (by rw [l1]; exact hb) (l1.trans l2.symm) w1 w2) hc hc' hs hna

/-- Two different histories of a program change (bank dropped and set again, calls in
another order) to which the theorem applies; the result is computed. -/
example :
    let bank (v : Option (BitVec 14)) : SetCall := ⟨"bank", .programBank, v⟩
    let prog (v : BitVec 7) : SetCall := ⟨"program", .schema .u7 ⟨0, 0x7F000000, 0, 0⟩, v⟩
    let cs := [bank (some 0x3FFF), prog 3, bank none, prog 9, bank (some 0x81)]
    let cs' := [bank (some 0x81), prog 9]
    (∃ b', runSetters .ump cs [0x40C00000, 0xFFFFFFFF] = .ok b' ∧
      runSetters .ump cs' [0x40C00000, 0xFFFFFFFF] = .ok b') ∧
    runSetters .ump cs' [0x40C00000, 0xFFFFFFFF] = .ok [0x40C00001, 0x89FF0101] := by
  intro bank prog cs cs'
  refine ⟨C56_ump_last_call_wins_partial (d := Msg.cv2ProgramChange) (by simp [Msg.all, Msg.cv2All]) _
    (by decide) ?_ ?_ ?_ ?_, by simp only [cs', bank, prog]; decide +kernel⟩
  · intro c hc
    simp only [cs, List.mem_cons, List.not_mem_nil, or_false] at hc
    rcases hc with rfl | rfl | rfl | rfl | rfl <;>
      exact ⟨by simp [Msg.cv2ProgramChange, bank, prog], by decide, rfl⟩
  · intro c hc
    simp only [cs', List.mem_cons, List.not_mem_nil, or_false] at hc
    rcases hc with rfl | rfl <;>
      exact ⟨by simp [Msg.cv2ProgramChange, bank, prog], by decide, rfl⟩
  · intro n
    by_cases h1 : "bank" = n
    · subst h1; rfl
    · by_cases h2 : "program" = n
      · subst h2; rfl
      · simp [lastSet, cs, cs', bank, prog, h1, h2]
  · intro n c h
    by_cases h1 : "bank" = n
    · subst h1; cases h; rfl
    · by_cases h2 : "program" = n
      · subst h2; cases h; rfl
      · simp [lastSet, cs, bank, prog, h1, h2] at h

/-- C56 (bytes).  Partial as C09: a song position pointer of fewer than three bytes. -/
theorem C56_bytes_last_call_wins_partial {d : MsgDesc} (hd : d ∈ Msg.hybridAll) (b : Buf .bytes)
    (hok : d.tryFrom .bytes b = .ok b)
    (h3 : d.name = "system_common::SongPositionPointer" → 3 ≤ b.length)
    {cs cs' : List SetCall} (hc : ∀ c ∈ cs, c.legal d .bytes)
    (hc' : ∀ c ∈ cs', c.legal d .bytes) (hs : ∀ n, lastSet cs n = lastSet cs' n) :
    ∃ b', runSetters .bytes cs b = .ok b' ∧ runSetters .bytes cs' b = .ok b' := by
  have hb := ((tryFrom_iff d .bytes b).mp hok).1
  have hg := good_bytes hd hb h3
  refine history_eq (of_decide_eq_true (List.all_eq_true.mp table_names d (hybrid_sub_all hd))) hg
    (fun c h1 _ _ _ _ _ l1 l2 w1 w2 => ?_) hc hc' hs ?_
  · obtain ⟨_, size, hfit, hsz⟩ := hg
    exact write_sameOn_bytes hd h1 (MsgDesc.fits_mem hfit h1.1) (by rw [l1]; exact hsz)
      (l1.trans l2.symm) w1 w2
  · intro n c h
    have hm : c ∈ cs := by
      have := List.mem_of_find?_eq_some h
      simpa using this
    have hdual := List.all_eq_true.mp (List.all_eq_true.mp table_dual d hd) _ (hc c hm).1
    obtain ⟨n, f, v⟩ := c
    cases f <;> first | rfl | cases hdual

example :
    let note (v : BitVec 7) : SetCall := ⟨"note_number", .hybrid .u7 ⟨0, 0x7F, 0⟩ ⟨0x00007F00, 0, 0, 0⟩, v⟩
    ∃ b', runSetters .bytes [note 1, note 2] [0x93, 0x3C, 0x7F] = .ok b' ∧
      runSetters .bytes [note 2] [0x93, 0x3C, 0x7F] = .ok b' := by
  intro note
  have hn : ∀ v, (note v).legal Msg.cv1NoteOn .bytes := fun v => ⟨by simp [Msg.cv1NoteOn, note], rfl, rfl⟩
  refine C56_bytes_last_call_wins_partial (d := Msg.cv1NoteOn) (by decide +kernel) [0x93, 0x3C, 0x7F]
    (by decide +kernel) (fun h => absurd h (by decide)) ?_ ?_ ?_
  · intro c hc
    simp only [List.mem_cons, List.not_mem_nil, or_false] at hc
    rcases hc with rfl | rfl <;> exact hn _
  · intro c hc
    obtain rfl := List.mem_singleton.mp hc
    exact hn _
  · intro n
    by_cases h : "note_number" = n
    · subst h; rfl
    · simp [lastSet, note, h]

/-- C56, negation of the excluded case: setting an attribute and then clearing it does not
give the message on which it was only cleared, although all getters agree: the attribute data
stays in the message, so the two compare as different. -/
theorem C56_stale_attribute_violation :
    ∃ (b x y : Buf .ump) (cs cs' : List SetCall), Msg.cv2NoteOn.tryFrom .ump b = .ok b ∧
      (∀ c ∈ cs, c.legal Msg.cv2NoteOn .ump) ∧ (∀ c ∈ cs', c.legal Msg.cv2NoteOn .ump) ∧
      (∀ n, lastSet cs n = lastSet cs' n) ∧
      runSetters .ump cs b = .ok x ∧ runSetters .ump cs' b = .ok y ∧
      (∀ n f, (n, f) ∈ Msg.cv2NoteOn.props → f.read .ump x = f.read .ump y) ∧ x ≠ y := by
  refine ⟨[0x40900000, 0], [0x40900000, 0x1234], [0x40900000, 0],
    [⟨"attribute", .noteAttribute, some (.pitch7_9 0x1234)⟩, ⟨"attribute", .noteAttribute, none⟩],
    [⟨"attribute", .noteAttribute, none⟩], rfl, ?_, ?_, ?_, rfl, rfl, ?_, by decide⟩
  · intro c hc
    simp only [List.mem_cons, List.not_mem_nil, or_false] at hc
    rcases hc with rfl | rfl <;> exact ⟨by simp [Msg.cv2NoteOn], by decide, rfl⟩
  · intro c hc
    simp only [List.mem_cons, List.not_mem_nil, or_false] at hc
    subst hc
    exact ⟨by simp [Msg.cv2NoteOn], by decide, rfl⟩
  · intro n
    by_cases h : "attribute" = n
    · subst h; rfl
    · simp [lastSet, h]
  · intro n f h
    simp only [Msg.cv2NoteOn, List.mem_cons, List.not_mem_nil, or_false, Prod.mk.injEq] at h
    rcases h with h | h | h | h | h | h | h <;> obtain ⟨_, rfl⟩ := h <;> rfl

/-- C56 (UMP): writing back what was read changes nothing.  Partial: values with one form on
the wire only; for a bank its two unused bits must be clear. -/
theorem C56_ump_write_back_partial {d : MsgDesc} (hd : d ∈ Msg.all) (b : Buf .ump)
    (hb : d.umpSize ≤ b.length) {n : String} {f : Fld} (hf : (n, f) ∈ d.props)
    (ha : f.accessible .ump = true) {v : f.Ty} (hr : f.read .ump b = .ok v)
    (hv : f.faithful v = true) (hdef : f.definite v = true)
    (hbank : f = .programBank → fieldAt b 1 16 1 = some 0 ∧ fieldAt b 1 24 1 = some 0) :
    f.write .ump b v = .ok b := by
  have hfit := MsgDesc.fits_mem (List.all_eq_true.mp table_ump_fits d hd) hf
  obtain ⟨b', e1, e2, e3, _⟩ := Fld.write_law ha hfit hb v hv
  simp only [Fld.fits, Bool.and_eq_true, decide_eq_true_eq] at hfit
  have hn : f.umpBits.need ≤ b.length := Nat.le_trans hfit.2 hb
  have hp := f.read_fields (accessible_not_const ha) hdef hn (by rw [← e2.1]; exact hn) hr e3
  suffices SameOn (f.bits .ump) b b' by rw [e1, ← eq_of_same this e2]
  by_cases hpb : f = .programBank
  · subst hpb
    match v, hdef with
    | some v, _ =>
      obtain ⟨_, a1, a2⟩ := bank_some e1
      refine sameOn_of_fields (ps := [(0, 31, 1), (1, 25, 7), (1, 17, 7), (1, 16, 1), (1, 24, 1)])
        (by decide) e2.1 ?_
      intro p hp'
      simp only [List.mem_cons, List.not_mem_nil, or_false] at hp'
      rcases hp' with rfl | rfl | rfl | rfl | rfl
      · exact hp (0, 31, 1) (by decide)
      · exact hp (1, 25, 7) (by decide)
      · exact hp (1, 17, 7) (by decide)
      · exact (hbank rfl).1.trans (top_bit (by omega) a1).symm
      · exact (hbank rfl).2.trans (top_bit (by omega) a2).symm
  · have hw := List.all_eq_true.mp (List.all_eq_true.mp table_within d hd) _ hf
    rw [show (n, f).2.accessible .ump = true from ha] at hw
    refine sameOn_of_fields hw e2.1 ?_
    have : f.wide = f.pieces := by cases f <;> first | rfl | exact absurd rfl hpb
    rw [show (n, f).2.wide = f.pieces from this]
    exact hp

example : Fld.write .ump .controller [0x400F1203, 0xDEADBEEF] (.pitch7_25 0xDEADBEEF) =
    .ok [0x400F1203, 0xDEADBEEF] :=
  C56_ump_write_back_partial (d := Msg.cv2RegisteredPerNoteController)
    (by simp [Msg.all, Msg.cv2All]) _ (by decide) (n := "controller")
    (by simp [Msg.cv2RegisteredPerNoteController]) (by decide) rfl rfl rfl (by decide)

/-- C56 (bytes): writing back what was read changes nothing. -/
theorem C56_bytes_write_back {d : MsgDesc} (hd : d ∈ Msg.hybridAll) (b : Buf .bytes)
    (hok : d.tryFrom .bytes b = .ok b) {n : String} {f : Fld} (hf : (n, f) ∈ d.props)
    (ha : f.accessible .bytes = true) {v : f.Ty} (hr : f.read .bytes b = .ok v)
    (h3 : d.name = "system_common::SongPositionPointer" → 3 ≤ b.length) :
    f.write .bytes b v = .ok b := by
  obtain ⟨hb, hval⟩ := (tryFrom_iff d .bytes b).mp hok
  obtain ⟨_, size, hfit, hsz⟩ := good_bytes hd hb h3
  have hdual := List.all_eq_true.mp (List.all_eq_true.mp table_dual d hd) _ hf
  obtain ⟨b', e1, e2, e3, e4⟩ := Fld.write_law ha (MsgDesc.fits_mem hfit hf) hsz v
    (Fld.dual_faithful hdual v)
  have := (Fld.agree f hdual hr e3 (hval _ hf) e4).sameOn e2.1
  rw [e1, ← eq_of_same this e2]

example : Fld.write .bytes (.hybrid .u7 ⟨0, 0x7F, 0⟩ ⟨0x00007F00, 0, 0, 0⟩) [0x93, 0xBC, 0x7F]
    (0x3C : BitVec 7) = .ok [0x93, 0xBC, 0x7F] :=
  C56_bytes_write_back (d := Msg.cv1NoteOn) (n := "note_number") (by decide +kernel) _
    (by decide +kernel) (by simp [Msg.cv1NoteOn]) rfl rfl (fun h => absurd h (by decide))

/-- C56, negation of the excluded case: a flex data message addressed in a reserved way has no
channel; writing that back makes it a message to the group. -/
theorem C56_write_back_violation :
    ∃ b : Buf .ump, Msg.flexSetKeySignature.tryFrom .ump b = .ok b ∧
      ("optional_channel", .flexOptionalChannel) ∈ Msg.flexSetKeySignature.props ∧
      Fld.read .ump .flexOptionalChannel b = .ok none ∧
      Fld.write .ump .flexOptionalChannel b none = .ok [0xD0100005, 0x01000000, 0, 0] ∧
      b = [0xD0270005, 0x01000000, 0, 0] :=
  ⟨_, by rfl, by simp [Msg.flexSetKeySignature], rfl, rfl, rfl⟩

/-- C56 (UMP): the values determine the message.  If the getter of a property returns the same
value for two messages of one type, both carry the same number in every field that the wire
layout gives that property (with C51 for the constant fields: messages of one type with equal
values differ at most in reserved bits).  Partial: for values with several forms on the wire the
fields may differ, as `C56_stale_attribute_violation` shows. -/
theorem C56_ump_same_values_partial {d : MsgDesc} (hd : d ∈ Msg.all) :
    ∃ l ∈ Layout.ump, l.name = d.name ∧
      ∀ n ps, (n, ps) ∈ l.props → ∀ f, (n, f) ∈ d.props → ∀ (b c : Buf .ump) v,
        d.umpSize ≤ b.length → d.umpSize ≤ c.length → f.definite v = true →
        f.read .ump b = .ok v → f.read .ump c = .ok v →
        ∀ p ∈ ps, fieldAt b p.1 p.2.1 p.2.2 = fieldAt c p.1 p.2.1 p.2.2 := by
  have ht := List.all_eq_true.mp table_layout d hd
  cases e : layoutOf Layout.ump d with
  | none => rw [e] at ht; cases ht
  | some l =>
    rw [e] at ht
    have ht := of_decide_eq_true ht
    obtain ⟨h1, h2⟩ := layoutOf_mem e
    refine ⟨l, h1, h2, ?_⟩
    intro n ps hps f hf b c v hb hc hv hr hr'
    rw [ht, List.mem_map] at hps
    obtain ⟨⟨n', g⟩, hg, eg⟩ := hps
    rw [List.mem_filter] at hg
    simp only [Prod.mk.injEq] at eg
    obtain ⟨rfl, rfl⟩ := eg
    have hn := of_decide_eq_true (List.all_eq_true.mp table_names d hd)
    have := eq_of_nodup_map hn hf hg.1
    subst this
    have hfit := MsgDesc.fits_mem (List.all_eq_true.mp table_ump_fits d hd) hf
    simp only [Fld.fits, Bool.and_eq_true, decide_eq_true_eq] at hfit
    exact f.read_fields (accessible_not_const hg.2) hv (Nat.le_trans hfit.2 hb)
      (Nat.le_trans hfit.2 hc) hr hr'

/-- Any two note-ons with the pitch attribute 0x1234 carry that number in word 1. -/
example (b c : Buf .ump) (hb : 2 ≤ b.length) (hc : 2 ≤ c.length)
    (h : Fld.read .ump .noteAttribute b = .ok (some (.pitch7_9 0x1234)))
    (h' : Fld.read .ump .noteAttribute c = .ok (some (.pitch7_9 0x1234))) :
    fieldAt b 1 16 16 = fieldAt c 1 16 16 := by
  obtain ⟨l, h1, h2, h3⟩ := C56_ump_same_values_partial (d := Msg.cv2NoteOn)
    (by simp [Msg.all, Msg.cv2All])
  have hl : ∀ l ∈ Layout.ump, l.name = "channel_voice2::NoteOn" →
      ("attribute", [(0, 24, 8), (1, 16, 16)]) ∈ l.props := by decide +kernel
  exact h3 _ _ (hl l h1 h2) .noteAttribute (by simp [Msg.cv2NoteOn]) b c _ hb hc rfl h h'
    (1, 16, 16) (by decide)

example : Fld.read .ump .noteAttribute [0x40903C03, 0x80001234] = .ok (some (.pitch7_9 0x1234)) :=
  rfl

end Midi2
