import Verif.Lemmas.Messages
import Verif.Spec.History

/-! Single setter calls and histories of setter calls. -/

namespace Midi2

/-- The finite table facts hold and the buffer is long enough for every property. -/
def MsgDesc.Good (d : MsgDesc) (m : Fmt) (b : Buf m) : Prop :=
  d.separated m = true ∧ ∃ size, d.fits m size = true ∧ size ≤ b.length

theorem good_ump {d : MsgDesc} (hd : d ∈ Msg.all) {b : Buf .ump} (hb : d.umpSize ≤ b.length) :
    d.Good .ump b :=
  ⟨List.all_eq_true.mp table_ump_separated d hd, d.umpSize,
    List.all_eq_true.mp table_ump_fits d hd, hb⟩

theorem good_bytes {d : MsgDesc} (hd : d ∈ Msg.hybridAll) {b : Buf .bytes}
    (hb : d.minSize .bytes ≤ b.length)
    (h3 : d.name = "system_common::SongPositionPointer" → 3 ≤ b.length) :
    d.Good .bytes b := by
  refine ⟨List.all_eq_true.mp table_bytes_separated d hd, ?_⟩
  have := List.all_eq_true.mp table_bytes_fits d hd
  simp only [Bool.or_eq_true, beq_iff_eq] at this
  rcases this with h | h
  · refine ⟨3, ?_, h3 h⟩
    have : ∀ d ∈ Msg.hybridAll, d.name = "system_common::SongPositionPointer" →
        d.fits .bytes 3 = true := by decide +kernel
    exact this d hd h
  · exact ⟨_, h, hb⟩

theorem MsgDesc.Good.same {d : MsgDesc} {m : Fmt} {b b' : Buf m} (h : d.Good m b)
    (hl : b.length = b'.length) : d.Good m b' := by
  obtain ⟨h1, s, h2, h3⟩ := h
  exact ⟨h1, s, h2, hl ▸ h3⟩

theorem validateProps_iff (m : Fmt) (ps : List (String × Fld)) (b : Buf m) :
    validateProps m ps b = .ok () ↔ ∀ p ∈ ps, p.2.validate m b = .ok () := by
  induction ps with
  | nil => simp [validateProps]
  | cons p ps ih =>
    obtain ⟨n, f⟩ := p
    simp only [validateProps, List.mem_cons, forall_eq_or_imp]
    cases e : f.validate m b with
    | ok u => simp only [Res.ok_bind, ih]; simp
    | err _ => simp
    | panic => simp

theorem tryFrom_iff (d : MsgDesc) (m : Fmt) (b : Buf m) :
    d.tryFrom m b = .ok b ↔ d.minSize m ≤ b.length ∧ ∀ p ∈ d.props, p.2.validate m b = .ok () := by
  unfold MsgDesc.tryFrom
  split
  · next h => simp; omega
  · next h =>
    rw [← validateProps_iff]
    cases validateProps m d.props b with
    | ok u => simp; omega
    | err _ => simp
    | panic => simp

/-- One setter call. -/
theorem setter_step {d : MsgDesc} {m : Fmt} {b : Buf m} (hg : d.Good m b)
    (hn : (d.props.map (·.1)).Nodup) {n : String} {f : Fld} (hf : (n, f) ∈ d.props)
    (ha : f.accessible m = true) (v : f.Ty) (hv : f.faithful v = true) :
    ∃ b', f.write m b v = .ok b' ∧ b'.length = b.length ∧ SameOff (f.bits m) b b' ∧
      f.read m b' = .ok v ∧
      (∀ n' g, (n', g) ∈ d.props → n' ≠ n → g.read m b' = g.read m b) ∧
      (d.tryFrom m b = .ok b → d.tryFrom m b' = .ok b') := by
  obtain ⟨hsep, size, hfit, hsz⟩ := hg
  obtain ⟨b', e1, e2, e3, e4⟩ := Fld.write_law ha (MsgDesc.fits_mem hfit hf) hsz v hv
  refine ⟨b', e1, e2.1.symm, e2, e3, ?_, ?_⟩
  · intro n' g hg hne
    exact Fld.read_of_sep (MsgDesc.separated_mem hsep hf hg (Ne.symm hne) ha) e2
  · intro hv
    rw [tryFrom_iff] at hv ⊢
    refine ⟨by rw [← e2.1]; exact hv.1, ?_⟩
    intro p hp
    obtain ⟨n', g⟩ := p
    by_cases hne : n' = n
    · subst hne
      have := eq_of_nodup_map hn hf hp
      subst this
      exact e4
    · rw [Fld.validate_of_sep (MsgDesc.separated_mem hsep hf hp (Ne.symm hne) ha) e2]
      exact hv.2 _ hp

/-- A history of setter calls. -/
theorem setter_history {d : MsgDesc} {m : Fmt} (hn : (d.props.map (·.1)).Nodup)
    (calls : List SetCall) :
    ∀ {b : Buf m}, d.Good m b → (∀ c ∈ calls, c.legal d m) →
    ∃ b', runSetters m calls b = .ok b' ∧ b'.length = b.length ∧
      (d.tryFrom m b = .ok b → d.tryFrom m b' = .ok b') ∧
      (∀ pre n f v post, calls = pre ++ ⟨n, f, v⟩ :: post → (∀ c ∈ post, c.name ≠ n) →
        f.read m b' = .ok v) ∧
      (∀ n f, (n, f) ∈ d.props → (∀ c ∈ calls, c.name ≠ n) → f.read m b' = f.read m b) := by
  induction calls with
  | nil =>
    intro b hg _
    refine ⟨b, rfl, rfl, id, ?_, fun _ _ _ _ => rfl⟩
    intro pre n f v post h
    cases pre <;> cases h
  | cons c cs ih =>
    intro b hg hc
    obtain ⟨n, f, v⟩ := c
    obtain ⟨h1, h2, h3⟩ := hc _ List.mem_cons_self
    obtain ⟨b1, e1, e2, _, e4, e5, e6⟩ := setter_step hg hn h1 h2 v h3
    obtain ⟨b', i1, i2, i3, i4, i5⟩ := ih (hg.same e2.symm)
      (fun c hc' => hc c (List.mem_cons_of_mem _ hc'))
    refine ⟨b', ?_, by rw [i2, e2], fun h => i3 (e6 h), ?_, ?_⟩
    · simp only [runSetters, e1, Res.ok_bind, i1]
    · intro pre n' f' v' post h hp
      cases pre with
      | nil =>
        simp only [List.nil_append, List.cons.injEq] at h
        obtain ⟨hh, ht⟩ := h
        subst ht
        cases hh
        rw [i5 n f h1 hp, e4]
      | cons x pre =>
        simp only [List.cons_append, List.cons.injEq] at h
        exact i4 pre n' f' v' post h.2 hp
    · intro n' g hg' hc'
      rw [i5 n' g hg' (fun c h => hc' c (List.mem_cons_of_mem _ h)),
        e5 n' g hg' (fun e => hc' _ List.mem_cons_self e.symm)]

end Midi2
