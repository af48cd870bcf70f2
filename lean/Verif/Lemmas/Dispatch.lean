import Verif.Spec.Dispatch
import Verif.Lemmas.Layout
import Verif.Props.Parse
import Verif.Props.Sysex
import Verif.Props.SysexBytes
import Verif.Props.TextStream

/-!
# Lemmas about the dispatch over message types
-/

namespace Midi2

theorem lookup_mem {α : Type} {c : Nat} {k : α} : ∀ {arms : List (Nat × α)},
    arms.lookup c = some k → (c, k) ∈ arms
  | [], h => by cases h
  | (c', k') :: arms, h => by
    rw [List.lookup_cons] at h
    by_cases e : c == c'
    · rw [e] at h; cases h
      rw [beq_iff_eq.mp e]; exact List.mem_cons_self
    · rw [show (c == c') = false by simpa using e] at h
      exact List.mem_cons_of_mem _ (lookup_mem h)

theorem lookup_of_mem {α : Type} {c : Nat} {k : α} : ∀ {arms : List (Nat × α)},
    (arms.map Prod.fst).Nodup → (c, k) ∈ arms → arms.lookup c = some k
  | (c', k') :: arms, hn, h => by
    rw [List.map_cons, List.nodup_cons] at hn
    rw [List.lookup_cons]
    rcases List.mem_cons.mp h with h' | h'
    · cases h'; simp
    · have : c ≠ c' := by
        rintro rfl
        exact hn.1 (List.mem_map.mpr ⟨(_, k), h', rfl⟩)
      rw [show (c == c') = false by simpa using this]
      exact lookup_of_mem hn.2 h'

theorem dispatch_iff {m : Fmt} {κ : Type} {parse : κ → Buf m → Res (Buf m)}
    {arms : List (Nat × κ)} (hn : (arms.map Prod.fst).Nodup) {c : Nat} {b b' : Buf m} {k : κ} :
    dispatch parse arms c b = .ok (k, b') ↔ (c, k) ∈ arms ∧ parse k b = .ok b' := by
  unfold dispatch
  constructor
  · intro h
    cases e : arms.lookup c with
    | none => rw [e] at h; cases h
    | some k' =>
      rw [e] at h
      simp only at h
      cases e' : parse k' b with
      | ok x =>
        rw [e'] at h
        cases h
        exact ⟨lookup_mem e, e'⟩
      | err x => rw [e'] at h; cases h
      | panic => rw [e'] at h; cases h
  · rintro ⟨h1, h2⟩
    rw [lookup_of_mem hn h1]
    simp only
    rw [h2]; rfl

theorem dispatch_cases {m : Fmt} {κ : Type} {parse : κ → Buf m → Res (Buf m)}
    {arms : List (Nat × κ)} (c : Nat) (b : Buf m)
    (h : ∀ c k, (c, k) ∈ arms → parse k b = .ok b ∨ ∃ e, parse k b = .err e) :
    (∃ k, dispatch parse arms c b = .ok (k, b)) ∨ ∃ e, dispatch parse arms c b = .err e := by
  unfold dispatch
  cases e : arms.lookup c with
  | none => exact .inr ⟨_, rfl⟩
  | some k =>
    simp only
    rcases h c k (lookup_mem e) with h | ⟨e, h⟩
    · rw [h]; exact .inl ⟨k, rfl⟩
    · rw [h]; exact .inr ⟨e, rfl⟩

/-- The shape of all the enums' `try_from`. -/
theorem guarded_dispatch_iff {m : Fmt} {κ : Type} {parse : κ → Buf m → Res (Buf m)}
    {arms : List (Nat × κ)} (hn : (arms.map Prod.fst).Nodup) {st : Buf m → Res Nat}
    {view : Buf m → Option Nat} {b b' : Buf m} {k : κ}
    (h0 : b = [] → view b = none) (h1 : b ≠ [] → ∃ c, st b = .ok c ∧ view b = some c) :
    (if b.isEmpty then (Res.err Error.invalidData : Res (κ × Buf m))
      else st b >>= fun c => dispatch parse arms c b) = .ok (k, b') ↔
    ∃ c, (c, k) ∈ arms ∧ view b = some c ∧ parse k b = .ok b' := by
  by_cases hb : b = []
  · rw [if_pos (by rw [hb]; rfl), h0 hb]
    constructor
    · intro h; cases h
    · rintro ⟨_, _, h, _⟩; cases h
  · obtain ⟨c, e1, e2⟩ := h1 hb
    rw [if_neg (by simpa using hb), e1, Res.ok_bind, dispatch_iff hn, e2]
    constructor
    · rintro ⟨h, h'⟩; exact ⟨c, h, rfl, h'⟩
    · rintro ⟨c', h, h', h''⟩; cases h'; exact ⟨h, h''⟩

theorem guarded_dispatch_cases {m : Fmt} {κ : Type} {parse : κ → Buf m → Res (Buf m)}
    {arms : List (Nat × κ)} {st : Buf m → Res Nat} {b : Buf m}
    (h : ∀ c k, (c, k) ∈ arms → parse k b = .ok b ∨ ∃ e, parse k b = .err e)
    (h1 : b ≠ [] → ∃ c, st b = .ok c) :
    (∃ k, (if b.isEmpty then (Res.err Error.invalidData : Res (κ × Buf m))
      else st b >>= fun c => dispatch parse arms c b) = .ok (k, b)) ∨
    ∃ e, (if b.isEmpty then (Res.err Error.invalidData : Res (κ × Buf m))
      else st b >>= fun c => dispatch parse arms c b) = .err e := by
  by_cases hb : b = []
  · rw [if_pos (by rw [hb]; rfl)]; exact .inr ⟨_, rfl⟩
  · obtain ⟨c, e⟩ := h1 hb
    rw [if_neg (by simpa using hb), e, Res.ok_bind]
    exact dispatch_cases c b h

theorem fieldAt_nil (i p n : Nat) : fieldAt [] i p n = none := rfl

theorem head_ne {α : Type} {b : List α} (h : b ≠ []) : 0 < b.length := List.length_pos_iff.mpr h

theorem nibble_view (b : Buf .ump) (i : Nat) (hi : i < 8) (h : b ≠ []) :
    ∃ c, (at' b 0 >>= fun w => pure (U32.nibble w i).toNat : Res Nat) = .ok c ∧
      fieldAt b 0 (4 * i) 4 = some c := by
  refine ⟨_, ?_, fieldAt_ok (head_ne h) _ _⟩
  rw [at'_lt (head_ne h), ← nibble_field _ hi]; rfl

theorem octet_view (b : Buf .ump) (i : Nat) (hi : i < 4) (h : b ≠ []) :
    ∃ c, (at' b 0 >>= fun w => pure (U32.octet w i).toNat : Res Nat) = .ok c ∧
      fieldAt b 0 (8 * i) 8 = some c := by
  refine ⟨_, ?_, fieldAt_ok (head_ne h) _ _⟩
  rw [at'_lt (head_ne h), ← octet_field _ hi]; rfl

theorem word_view (b : Buf .ump) (i : Nat) (hi : i < 2) (h : b ≠ []) :
    ∃ c, (at' b 0 >>= fun w => pure (U32.word w i).toNat : Res Nat) = .ok c ∧
      fieldAt b 0 (16 * i) 16 = some c := by
  refine ⟨_, ?_, fieldAt_ok (head_ne h) _ _⟩
  rw [at'_lt (head_ne h), ← word_field _ hi]; rfl

theorem stream_view (b : Buf .ump) (h : b ≠ []) :
    ∃ c, (at' b 0 >>= fun w => pure (streamStatusOf w).toNat : Res Nat) = .ok c ∧
      fieldAt b 0 6 10 = some c := by
  refine ⟨_, ?_, fieldAt_ok (head_ne h) _ _⟩
  rw [at'_lt (head_ne h), ← streamStatus_field]; rfl

/-- `BitVec 8` at the front as a number. -/
def byteAt (b : Buf .bytes) : Option Nat := b.head?.map BitVec.toNat

theorem byte_view (b : Buf .bytes) (h : b ≠ []) :
    ∃ c, (at' b 0 >>= fun w => pure w.toNat : Res Nat) = .ok c ∧ byteAt b = some c := by
  cases b with
  | nil => exact absurd rfl h
  | cons x b => exact ⟨x.toNat, rfl, rfl⟩

theorem byte_nibble_view (b : Buf .bytes) (h : b ≠ []) :
    ∃ c, (at' b 0 >>= fun w => pure (U8.nibble w 0).toNat : Res Nat) = .ok c ∧
      (byteAt b).map (· / 16) = some c := by
  cases b with
  | nil => exact absurd rfl h
  | cons x b =>
    refine ⟨(U8.nibble x 0).toNat, rfl, ?_⟩
    rw [U8.nibble_eq]
    show some (x.toNat / 16) = _
    rw [BitVec.extractLsb'_toNat, Nat.shiftRight_eq_div_pow]
    have : x.toNat < 256 := x.isLt
    congr 1
    simp only [Nat.reduceSub, Nat.reduceMul, Nat.reducePow] at *
    omega

theorem Utility.tryFrom_iff {b b' : Buf .ump} {k : MsgDesc} :
    Utility.tryFrom b = .ok (k, b') ↔
      ∃ c, (c, k) ∈ Utility.arms ∧ fieldAt b 0 8 4 = some c ∧ MsgDesc.tryFrom k .ump b = .ok b' := by
  have := guarded_dispatch_iff (m := .ump) (parse := fun k b => MsgDesc.tryFrom k .ump b)
    (arms := Utility.arms) (by decide +kernel) (k := k) (b := b) (b' := b')
    (st := fun b => at' b 0 >>= fun w => pure (U32.nibble w 2).toNat) (view := fun b => fieldAt b 0 8 4) (fun h => by rw [h]; rfl) (nibble_view b 2 (by omega))
  unfold Utility.tryFrom
  rw [← this]
  simp only [bind_assoc, pure_bind]

theorem Utility.tryFrom_cases (b : Buf .ump)
    (h : ∀ c k, (c, k) ∈ Utility.arms → MsgDesc.tryFrom k .ump b = .ok b ∨ ∃ e, MsgDesc.tryFrom k .ump b = .err e) :
    (∃ k, Utility.tryFrom b = .ok (k, b)) ∨ ∃ e, Utility.tryFrom b = .err e := by
  have := guarded_dispatch_cases (m := .ump) (parse := fun k b => MsgDesc.tryFrom k .ump b)
    (arms := Utility.arms) (b := b) (st := fun b => at' b 0 >>= fun w => pure (U32.nibble w 2).toNat) h
    (fun h => by obtain ⟨c, h, _⟩ := nibble_view b 2 (by omega) h; exact ⟨c, h⟩)
  unfold Utility.tryFrom
  simp only [bind_assoc, pure_bind] at this
  exact this

theorem ChannelVoice2.tryFrom_iff {b b' : Buf .ump} {k : MsgDesc} :
    ChannelVoice2.tryFrom b = .ok (k, b') ↔
      ∃ c, (c, k) ∈ ChannelVoice2.arms ∧ fieldAt b 0 8 4 = some c ∧ MsgDesc.tryFrom k .ump b = .ok b' := by
  have := guarded_dispatch_iff (m := .ump) (parse := fun k b => MsgDesc.tryFrom k .ump b)
    (arms := ChannelVoice2.arms) (by decide +kernel) (k := k) (b := b) (b' := b')
    (st := fun b => at' b 0 >>= fun w => pure (U32.nibble w 2).toNat) (view := fun b => fieldAt b 0 8 4) (fun h => by rw [h]; rfl) (nibble_view b 2 (by omega))
  unfold ChannelVoice2.tryFrom
  rw [← this]
  simp only [bind_assoc, pure_bind]

theorem ChannelVoice2.tryFrom_cases (b : Buf .ump)
    (h : ∀ c k, (c, k) ∈ ChannelVoice2.arms → MsgDesc.tryFrom k .ump b = .ok b ∨ ∃ e, MsgDesc.tryFrom k .ump b = .err e) :
    (∃ k, ChannelVoice2.tryFrom b = .ok (k, b)) ∨ ∃ e, ChannelVoice2.tryFrom b = .err e := by
  have := guarded_dispatch_cases (m := .ump) (parse := fun k b => MsgDesc.tryFrom k .ump b)
    (arms := ChannelVoice2.arms) (b := b) (st := fun b => at' b 0 >>= fun w => pure (U32.nibble w 2).toNat) h
    (fun h => by obtain ⟨c, h, _⟩ := nibble_view b 2 (by omega) h; exact ⟨c, h⟩)
  unfold ChannelVoice2.tryFrom
  simp only [bind_assoc, pure_bind] at this
  exact this

theorem ChannelVoice1.tryFrom_ump_iff {b b' : Buf .ump} {k : MsgDesc} :
    ChannelVoice1.tryFrom .ump b = .ok (k, b') ↔
      ∃ c, (c, k) ∈ ChannelVoice1.arms ∧ fieldAt b 0 8 4 = some c ∧ MsgDesc.tryFrom k .ump b = .ok b' := by
  have := guarded_dispatch_iff (m := .ump) (parse := fun k b => MsgDesc.tryFrom k .ump b)
    (arms := ChannelVoice1.arms) (by decide +kernel) (k := k) (b := b) (b' := b')
    (st := fun b => ChannelVoice1.status .ump b) (view := fun b => fieldAt b 0 8 4) (fun h => by rw [h]; rfl) (nibble_view b 2 (by omega))
  unfold ChannelVoice1.tryFrom
  rw [← this]

theorem ChannelVoice1.tryFrom_ump_cases (b : Buf .ump)
    (h : ∀ c k, (c, k) ∈ ChannelVoice1.arms → MsgDesc.tryFrom k .ump b = .ok b ∨ ∃ e, MsgDesc.tryFrom k .ump b = .err e) :
    (∃ k, ChannelVoice1.tryFrom .ump b = .ok (k, b)) ∨ ∃ e, ChannelVoice1.tryFrom .ump b = .err e := by
  have := guarded_dispatch_cases (m := .ump) (parse := fun k b => MsgDesc.tryFrom k .ump b)
    (arms := ChannelVoice1.arms) (b := b) (st := fun b => ChannelVoice1.status .ump b) h
    (fun h => by obtain ⟨c, h, _⟩ := nibble_view b 2 (by omega) h; exact ⟨c, h⟩)
  unfold ChannelVoice1.tryFrom
  exact this

theorem SystemCommon.tryFrom_ump_iff {b b' : Buf .ump} {k : MsgDesc} :
    SystemCommon.tryFrom .ump b = .ok (k, b') ↔
      ∃ c, (c, k) ∈ SystemCommon.arms ∧ fieldAt b 0 8 8 = some c ∧ MsgDesc.tryFrom k .ump b = .ok b' := by
  have := guarded_dispatch_iff (m := .ump) (parse := fun k b => MsgDesc.tryFrom k .ump b)
    (arms := SystemCommon.arms) (by decide +kernel) (k := k) (b := b) (b' := b')
    (st := fun b => SystemCommon.status .ump b) (view := fun b => fieldAt b 0 8 8) (fun h => by rw [h]; rfl) (octet_view b 1 (by omega))
  unfold SystemCommon.tryFrom
  rw [← this]

theorem SystemCommon.tryFrom_ump_cases (b : Buf .ump)
    (h : ∀ c k, (c, k) ∈ SystemCommon.arms → MsgDesc.tryFrom k .ump b = .ok b ∨ ∃ e, MsgDesc.tryFrom k .ump b = .err e) :
    (∃ k, SystemCommon.tryFrom .ump b = .ok (k, b)) ∨ ∃ e, SystemCommon.tryFrom .ump b = .err e := by
  have := guarded_dispatch_cases (m := .ump) (parse := fun k b => MsgDesc.tryFrom k .ump b)
    (arms := SystemCommon.arms) (b := b) (st := fun b => SystemCommon.status .ump b) h
    (fun h => by obtain ⟨c, h, _⟩ := octet_view b 1 (by omega) h; exact ⟨c, h⟩)
  unfold SystemCommon.tryFrom
  exact this

theorem ChannelVoice1.tryFrom_bytes_iff {b b' : Buf .bytes} {k : MsgDesc} :
    ChannelVoice1.tryFrom .bytes b = .ok (k, b') ↔
      ∃ c, (c, k) ∈ ChannelVoice1.arms ∧ (byteAt b).map (· / 16) = some c ∧ MsgDesc.tryFrom k .bytes b = .ok b' := by
  have := guarded_dispatch_iff (m := .bytes) (parse := fun k b => MsgDesc.tryFrom k .bytes b)
    (arms := ChannelVoice1.arms) (by decide +kernel) (k := k) (b := b) (b' := b')
    (st := fun b => ChannelVoice1.status .bytes b) (view := fun b => (byteAt b).map (· / 16)) (fun h => by rw [h]; rfl) (byte_nibble_view b)
  unfold ChannelVoice1.tryFrom
  rw [← this]

theorem ChannelVoice1.tryFrom_bytes_cases (b : Buf .bytes)
    (h : ∀ c k, (c, k) ∈ ChannelVoice1.arms → MsgDesc.tryFrom k .bytes b = .ok b ∨ ∃ e, MsgDesc.tryFrom k .bytes b = .err e) :
    (∃ k, ChannelVoice1.tryFrom .bytes b = .ok (k, b)) ∨ ∃ e, ChannelVoice1.tryFrom .bytes b = .err e := by
  have := guarded_dispatch_cases (m := .bytes) (parse := fun k b => MsgDesc.tryFrom k .bytes b)
    (arms := ChannelVoice1.arms) (b := b) (st := fun b => ChannelVoice1.status .bytes b) h
    (fun h => by obtain ⟨c, h, _⟩ := byte_nibble_view b h; exact ⟨c, h⟩)
  unfold ChannelVoice1.tryFrom
  exact this

theorem SystemCommon.tryFrom_bytes_iff {b b' : Buf .bytes} {k : MsgDesc} :
    SystemCommon.tryFrom .bytes b = .ok (k, b') ↔
      ∃ c, (c, k) ∈ SystemCommon.arms ∧ byteAt b = some c ∧ MsgDesc.tryFrom k .bytes b = .ok b' := by
  have := guarded_dispatch_iff (m := .bytes) (parse := fun k b => MsgDesc.tryFrom k .bytes b)
    (arms := SystemCommon.arms) (by decide +kernel) (k := k) (b := b) (b' := b')
    (st := fun b => SystemCommon.status .bytes b) (view := fun b => byteAt b) (fun h => by rw [h]; rfl) (byte_view b)
  unfold SystemCommon.tryFrom
  rw [← this]

theorem SystemCommon.tryFrom_bytes_cases (b : Buf .bytes)
    (h : ∀ c k, (c, k) ∈ SystemCommon.arms → MsgDesc.tryFrom k .bytes b = .ok b ∨ ∃ e, MsgDesc.tryFrom k .bytes b = .err e) :
    (∃ k, SystemCommon.tryFrom .bytes b = .ok (k, b)) ∨ ∃ e, SystemCommon.tryFrom .bytes b = .err e := by
  have := guarded_dispatch_cases (m := .bytes) (parse := fun k b => MsgDesc.tryFrom k .bytes b)
    (arms := SystemCommon.arms) (b := b) (st := fun b => SystemCommon.status .bytes b) h
    (fun h => by obtain ⟨c, h, _⟩ := byte_view b h; exact ⟨c, h⟩)
  unfold SystemCommon.tryFrom
  exact this

theorem FlexData.tryFrom_iff {b b' : Buf .ump} {k : UmpKind} :
    FlexData.tryFrom b = .ok (k, b') ↔
      ∃ c, (c, k) ∈ FlexData.arms ∧ fieldAt b 0 16 16 = some c ∧ UmpKind.tryFrom k b = .ok b' := by
  have := guarded_dispatch_iff (m := .ump) (parse := fun k b => UmpKind.tryFrom k b)
    (arms := FlexData.arms) (by decide +kernel) (k := k) (b := b) (b' := b')
    (st := fun b => at' b 0 >>= fun w => pure (U32.word w 1).toNat) (view := fun b => fieldAt b 0 16 16) (fun h => by rw [h]; rfl) (word_view b 1 (by omega))
  unfold FlexData.tryFrom
  rw [← this]
  simp only [bind_assoc, pure_bind]

theorem FlexData.tryFrom_cases (b : Buf .ump)
    (h : ∀ c k, (c, k) ∈ FlexData.arms → UmpKind.tryFrom k b = .ok b ∨ ∃ e, UmpKind.tryFrom k b = .err e) :
    (∃ k, FlexData.tryFrom b = .ok (k, b)) ∨ ∃ e, FlexData.tryFrom b = .err e := by
  have := guarded_dispatch_cases (m := .ump) (parse := fun k b => UmpKind.tryFrom k b)
    (arms := FlexData.arms) (b := b) (st := fun b => at' b 0 >>= fun w => pure (U32.word w 1).toNat) h
    (fun h => by obtain ⟨c, h, _⟩ := word_view b 1 (by omega) h; exact ⟨c, h⟩)
  unfold FlexData.tryFrom
  simp only [bind_assoc, pure_bind] at this
  exact this

theorem UmpStream.tryFrom_iff {b b' : Buf .ump} {k : UmpKind} :
    UmpStream.tryFrom b = .ok (k, b') ↔
      ∃ c, (c, k) ∈ UmpStream.arms ∧ fieldAt b 0 6 10 = some c ∧ UmpKind.tryFrom k b = .ok b' := by
  have := guarded_dispatch_iff (m := .ump) (parse := fun k b => UmpKind.tryFrom k b)
    (arms := UmpStream.arms) (by decide +kernel) (k := k) (b := b) (b' := b')
    (st := fun b => at' b 0 >>= fun w => pure (streamStatusOf w).toNat) (view := fun b => fieldAt b 0 6 10) (fun h => by rw [h]; rfl) (stream_view b)
  unfold UmpStream.tryFrom
  rw [← this]
  simp only [bind_assoc, pure_bind]

theorem UmpStream.tryFrom_cases (b : Buf .ump)
    (h : ∀ c k, (c, k) ∈ UmpStream.arms → UmpKind.tryFrom k b = .ok b ∨ ∃ e, UmpKind.tryFrom k b = .err e) :
    (∃ k, UmpStream.tryFrom b = .ok (k, b)) ∨ ∃ e, UmpStream.tryFrom b = .err e := by
  have := guarded_dispatch_cases (m := .ump) (parse := fun k b => UmpKind.tryFrom k b)
    (arms := UmpStream.arms) (b := b) (st := fun b => at' b 0 >>= fun w => pure (streamStatusOf w).toNat) h
    (fun h => by obtain ⟨c, h, _⟩ := stream_view b h; exact ⟨c, h⟩)
  unfold UmpStream.tryFrom
  simp only [bind_assoc, pure_bind] at this
  exact this

/-! ## Tables -/

/-- The arms of the code as a table: message type, position and width of the status, arms. -/
def families : List (Nat × Nat × Nat × List (Nat × UmpKind)) := [
  (0, 8, 4, Utility.arms.map fun p => (p.1, .fixed p.2)),
  (1, 8, 8, SystemCommon.arms.map fun p => (p.1, .fixed p.2)),
  (2, 8, 4, ChannelVoice1.arms.map fun p => (p.1, .fixed p.2)),
  (3, 8, 0, [(0, .sysex .s7)]),
  (4, 8, 4, ChannelVoice2.arms.map fun p => (p.1, .fixed p.2)),
  (5, 8, 0, [(0, .sysex .s8)]),
  (13, 16, 16, FlexData.arms),
  (15, 6, 10, UmpStream.arms)]

/-- The same flat. -/
def codeTable : List (UmpKind × Header) :=
  families.flatMap fun (t, p, w, arms) => arms.map fun (c, k) => (k, ⟨t, p, w, c⟩)

/-- The header that the constants in the properties of a fixed-size message demand. -/
def MsgDesc.demands (d : MsgDesc) (h : Header) : Bool :=
  d.props.any (fun p => match p.2 with | .umpType t => t.toNat == h.type | _ => false) &&
  (if h.pos = 8 ∧ h.width = 4 then
    d.props.any (fun p => match p.2 with | .cvStatus s => s.toNat == h.code | _ => false)
  else if h.pos = 8 ∧ h.width = 8 then
    d.props.any (fun p => match p.2 with | .sysStatus s => s.toNat == h.code | _ => false)
  else if h.pos = 16 ∧ h.width = 16 then
    d.props.any (fun p => match p.2 with | .flexBank s => s.toNat == h.code / 256 | _ => false) &&
    d.props.any (fun p => match p.2 with | .flexStatus s => s.toNat == h.code % 256 | _ => false)
  else
    h.pos == 6 && h.width == 10 &&
    d.props.any (fun p => match p.2 with | .streamStatus s => s.toNat == h.code | _ => false))

/-- Words a slice needs for its status to be looked at. -/
def UmpKind.room : UmpKind → Nat
  | .fixed d => if d.name = "ump_stream::FunctionBlockDiscovery" then 4 else 0
  | _ => 0

theorem table_demands : ∀ e ∈ umpTable, ∀ d, e.1 = .fixed d →
    d ∈ Msg.all ∧ d.demands e.2 = true ∧ (e.2.pos ≠ 8 → 4 ≤ max d.umpSize e.1.room) := by
  have : (umpTable.all fun e => match e.1 with
    | .fixed d => decide (d ∈ Msg.all) && d.demands e.2 &&
        (e.2.pos == 8 || decide (4 ≤ max d.umpSize e.1.room))
    | _ => true) = true := by decide +kernel
  intro e he d hd
  have := List.all_eq_true.mp this e he
  rw [hd] at this ⊢
  simp only [Bool.and_eq_true, decide_eq_true_eq, Bool.or_eq_true, beq_iff_eq] at this
  exact ⟨this.1.1, this.1.2, fun h => this.2.resolve_left h⟩

theorem any_prop {ps : List (String × Fld)} {q : Fld → Bool}
    (h : ps.any (fun p => q p.2) = true) : ∃ n f, (n, f) ∈ ps ∧ q f = true := by
  rw [List.any_eq_true] at h
  obtain ⟨⟨n, f⟩, h1, h2⟩ := h
  exact ⟨n, f, h1, h2⟩

theorem field_octets (w : BitVec 32) : field w 16 16 = 256 * field w 16 8 + field w 24 8 := by
  unfold field
  simp only [Nat.reduceSub, Nat.reducePow]
  omega

/-- A fixed-size message accepted has the header its properties demand. -/
theorem fixed_header {d : MsgDesc} (hd : d ∈ Msg.all) {h : Header} (hh : d.demands h = true)
    {b : Buf .ump} (hl : h.pos ≠ 8 → 4 ≤ b.length) (hok : d.tryFrom .ump b = .ok b) : h.Of b := by
  have W : d.WellFormed .ump b := by
    by_cases W : d.WellFormed .ump b
    · exact W
    · rw [(C07_ump_accepts_exactly hd b).2 W] at hok; cases hok
  obtain ⟨_, hp⟩ := W
  unfold MsgDesc.demands at hh
  rw [Bool.and_eq_true] at hh
  obtain ⟨h1, h2⟩ := hh
  constructor
  · obtain ⟨n, f, hm, hf⟩ := any_prop (q := fun f => match f with
      | .umpType t => t.toNat == h.type | _ => false) h1
    have := hp _ hm
    cases f <;> simp only [beq_iff_eq, Bool.false_eq_true] at hf
    rw [← hf]; exact this
  · split at h2
    · next h84 =>
      obtain ⟨n, f, hm, hf⟩ := any_prop (q := fun f => match f with
        | .cvStatus t => t.toNat == h.code | _ => false) h2
      have := hp _ hm
      cases f <;> simp only [beq_iff_eq, Bool.false_eq_true] at hf
      rw [h84.1, h84.2, ← hf]; exact this
    · split at h2
      · next h88 =>
        obtain ⟨n, f, hm, hf⟩ := any_prop (q := fun f => match f with
          | .sysStatus t => t.toNat == h.code | _ => false) h2
        have := hp _ hm
        cases f <;> simp only [beq_iff_eq, Bool.false_eq_true] at hf
        rw [h88.1, h88.2, ← hf]; exact this
      · split at h2
        · next h16 =>
          simp only [Bool.and_eq_true] at h2
          have hl := hl (by omega)
          obtain ⟨n, f, hm, hf⟩ := any_prop (q := fun f => match f with
            | .flexBank t => t.toNat == h.code / 256 | _ => false) h2.1
          obtain ⟨n', f', hm', hf'⟩ := any_prop (q := fun f => match f with
            | .flexStatus t => t.toNat == h.code % 256 | _ => false) h2.2
          have p1 := hp _ hm
          have p2 := hp _ hm'
          cases f <;> simp only [beq_iff_eq, Bool.false_eq_true] at hf
          cases f' <;> simp only [beq_iff_eq, Bool.false_eq_true] at hf'
          have p1 : fieldAt b 0 16 8 = _ := p1 0 (by omega)
          have p2 : fieldAt b 0 24 8 = _ := p2 0 (by omega)
          rw [hf, fieldAt_ok (by omega)] at p1
          rw [hf', fieldAt_ok (by omega)] at p2
          rw [h16.1, h16.2, fieldAt_ok (by omega), field_octets, Option.some.inj p1,
            Option.some.inj p2]
          congr 1
          omega
        · simp only [Bool.and_eq_true, beq_iff_eq] at h2
          have hl := hl (by omega)
          obtain ⟨n, f, hm, hf⟩ := any_prop (q := fun f => match f with
            | .streamStatus t => t.toNat == h.code | _ => false) h2.2
          have p1 := hp _ hm
          cases f <;> simp only [beq_iff_eq, Bool.false_eq_true] at hf
          have p1 : fieldAt b 0 6 10 = _ := p1 0 (by omega)
          rw [h2.1.1, h2.1.2, ← hf]; exact p1

theorem head_of_run {b : List (BitVec 32)} {k t : Nat} (hl : 0 < b.length)
    {g : BitVec 32 → Nat}
    (h : SeqOk (((packetHeads k b).takeWhile fun w => decide (field w 0 4 = t)).map g)) :
    fieldAt b 0 0 4 = some t := by
  have hne : ((packetHeads k b).takeWhile fun w => decide (field w 0 4 = t)) ≠ [] := by
    intro e
    rw [e] at h
    rcases h with h | ⟨n, h⟩ <;> cases h
  cases e : packetHeads k b with
  | nil => rw [e] at hne; exact absurd rfl hne
  | cons w ws =>
    rw [e, List.takeWhile_cons] at hne
    split at hne
    · next hw =>
      have : (packetHeads k b)[0]? = some w := by rw [e]; rfl
      unfold packetHeads at this
      rw [List.getElem?_map] at this
      cases e0 : (List.range ((b.length + k - 1) / k))[0]? with
      | none => rw [e0] at this; cases this
      | some i =>
        have hi : i = 0 := by
          have := List.getElem?_eq_some_iff.mp e0
          obtain ⟨hlt, hv⟩ := this
          rw [List.getElem_range] at hv
          exact hv.symm
        rw [e0, hi, Option.map_some, Nat.mul_zero, List.getElem?_eq_getElem hl] at this
        have e1 : b[0] = w := Option.some.inj this
        rw [fieldAt_ok hl, e1]
        exact congrArg some (of_decide_eq_true hw)
    · exact absurd rfl hne

theorem field_zero (w : BitVec 32) (p : Nat) : field w p 0 = 0 := by
  unfold field; rw [Nat.pow_zero, Nat.mod_one]

theorem table_other : ∀ e ∈ umpTable, match e.1 with
    | .fixed _ => True
    | .sysex k => e.2 = ⟨k.layout.type, 8, 0, 0⟩
    | .flexText t => t ∈ FlexText.all ∧ e.2 = ⟨13, 16, 16, 256 * t.bank.toNat + t.status.toNat⟩
    | .streamText t => t ∈ StreamText.all ∧ e.2 = ⟨15, 6, 10, t.status.toNat⟩ := by
  have : (umpTable.all fun e => match e.1 with
    | .fixed _ => true
    | .sysex k => decide (e.2 = ⟨k.layout.type, 8, 0, 0⟩)
    | .flexText t => decide (t ∈ FlexText.all) &&
        decide (e.2 = ⟨13, 16, 16, 256 * t.bank.toNat + t.status.toNat⟩)
    | .streamText t => decide (t ∈ StreamText.all) &&
        decide (e.2 = ⟨15, 6, 10, t.status.toNat⟩)) = true := by decide +kernel
  intro e he
  have := List.all_eq_true.mp this e he
  cases h : e.1 with
  | fixed d => trivial
  | sysex k => rw [h] at this; exact of_decide_eq_true this
  | flexText t =>
    rw [h] at this
    simp only [Bool.and_eq_true, decide_eq_true_eq] at this
    exact this
  | streamText t =>
    rw [h] at this
    simp only [Bool.and_eq_true, decide_eq_true_eq] at this
    exact this

/-- Every accepted slice has the header of the table. -/
theorem accepted_header {k : UmpKind} {h : Header} (he : (k, h) ∈ umpTable) {b : Buf .ump}
    (hr : k.room ≤ b.length) (hok : k.tryFrom b = .ok b) : h.Of b := by
  cases k with
  | fixed d =>
    obtain ⟨h1, h2, h3⟩ := table_demands _ he d rfl
    refine fixed_header h1 h2 (fun h => ?_) hok
    have : 4 ≤ max d.umpSize (UmpKind.fixed d).room := h3 h
    have hl : d.umpSize ≤ b.length := ((tryFrom_iff d .ump b).mp hok).1
    omega
  | sysex k =>
    have ht : h = ⟨k.layout.type, 8, 0, 0⟩ := table_other _ he
    have A := (Sx.tryFrom_iff k b).mp hok
    have hl : 0 < b.length := by
      have h1 := A.len
      have : 0 < k.layout.words := by cases k <;> decide
      omega
    subst ht
    refine ⟨head_of_run hl A.statuses, ?_⟩
    rw [fieldAt_ok hl, field_zero]
  | flexText t =>
    obtain ⟨h1, h2⟩ := table_other _ he
    have h2 : h = _ := h2
    have A := (FlexText.tryFrom_iff t b).mp hok
    have hl := A.len
    subst h2
    refine ⟨head_of_run (by omega) A.formats, ?_⟩
    have p1 : fieldAt b 0 16 8 = _ := A.banks 0 (by omega)
    have p2 : fieldAt b 0 24 8 = _ := A.statuses 0 (by omega)
    rw [fieldAt_ok (by omega)] at p1 p2
    rw [fieldAt_ok (by omega), field_octets, Option.some.inj p1, Option.some.inj p2]
  | streamText t =>
    obtain ⟨h1, h2⟩ := table_other _ he
    have h2 : h = _ := h2
    have A := (StreamText.tryFrom_iff (StreamText.known_of_mem h1) b).mp hok
    have hl := A.len
    subst h2
    exact ⟨head_of_run (by omega) A.formats, A.statuses 0 (by omega)⟩

/-! ## Everything together -/

theorem map_ok_iff {α β γ : Type} {x : Res (α × γ)} {f : α → β} {k : β} {b' : γ} :
    (x >>= fun y => pure (f y.1, y.2)) = Res.ok (k, b') ↔ ∃ d, k = f d ∧ x = .ok (d, b') := by
  cases x with
  | ok y =>
    constructor
    · intro h; cases h; exact ⟨y.1, rfl, rfl⟩
    · rintro ⟨d, h1, h2⟩; cases h2; rw [h1]; rfl
  | err e =>
    constructor
    · intro h; cases h
    · rintro ⟨_, _, h⟩; cases h
  | panic =>
    constructor
    · intro h; cases h
    · rintro ⟨_, _, h⟩; cases h

theorem mem_codeTable {k : UmpKind} {h : Header} :
    (k, h) ∈ codeTable ↔ ∃ f ∈ families, h.type = f.1 ∧ h.pos = f.2.1 ∧ h.width = f.2.2.1 ∧
      (h.code, k) ∈ f.2.2.2 := by
  unfold codeTable
  rw [List.mem_flatMap]
  constructor
  · rintro ⟨⟨t, p, w, arms⟩, hf, hm⟩
    obtain ⟨⟨c, k'⟩, hc, he⟩ := List.mem_map.mp hm
    cases he
    exact ⟨_, hf, rfl, rfl, rfl, hc⟩
  · rintro ⟨⟨t, p, w, arms⟩, hf, h1, h2, h3, h4⟩
    refine ⟨_, hf, List.mem_map.mpr ⟨_, h4, ?_⟩⟩
    obtain ⟨t', p', w', c'⟩ := h
    cases h1; cases h2; cases h3
    rfl

theorem families_exists (P : Nat × Nat × Nat × List (Nat × UmpKind) → Prop) (t : Nat) :
    (∃ f ∈ families, t = f.1 ∧ P f) ↔
      (t = 0 ∧ P (0, 8, 4, Utility.arms.map fun p => (p.1, .fixed p.2))) ∨
      (t = 1 ∧ P (1, 8, 8, SystemCommon.arms.map fun p => (p.1, .fixed p.2))) ∨
      (t = 2 ∧ P (2, 8, 4, ChannelVoice1.arms.map fun p => (p.1, .fixed p.2))) ∨
      (t = 3 ∧ P (3, 8, 0, [(0, .sysex .s7)])) ∨
      (t = 4 ∧ P (4, 8, 4, ChannelVoice2.arms.map fun p => (p.1, .fixed p.2))) ∨
      (t = 5 ∧ P (5, 8, 0, [(0, .sysex .s8)])) ∨
      (t = 13 ∧ P (13, 16, 16, FlexData.arms)) ∨
      (t = 15 ∧ P (15, 6, 10, UmpStream.arms)) := by
  unfold families
  simp only [List.mem_cons, List.not_mem_nil, or_false, exists_eq_or_imp, exists_eq_left]

/-- What the code's dispatch does, as a table. -/
theorem UmpMessage.tryFrom_iff {b b' : Buf .ump} {k : UmpKind} :
    UmpMessage.tryFrom b = .ok (k, b') ↔
      ∃ h, (k, h) ∈ codeTable ∧ h.Of b ∧ k.tryFrom b = .ok b' := by
  by_cases hb : b = []
  · subst hb
    constructor
    · intro h; cases h
    · rintro ⟨h, _, hh, _⟩; cases hh.1
  · have hl := head_ne hb
    have key : (∃ h, (k, h) ∈ codeTable ∧ h.Of b ∧ k.tryFrom b = .ok b') ↔
        ∃ f ∈ families, field b[0] 0 4 = f.1 ∧
          ∃ c, (c, k) ∈ f.2.2.2 ∧ fieldAt b 0 f.2.1 f.2.2.1 = some c ∧ k.tryFrom b = .ok b' := by
      constructor
      · rintro ⟨h, hm, ⟨h1, h2⟩, hk⟩
        obtain ⟨f, hf, e1, e2, e3, e4⟩ := mem_codeTable.mp hm
        rw [fieldAt_ok hl, e1] at h1
        rw [e2, e3] at h2
        exact ⟨f, hf, Option.some.inj h1, _, e4, h2, hk⟩
      · rintro ⟨f, hf, h1, c, hc, h2, hk⟩
        refine ⟨⟨f.1, f.2.1, f.2.2.1, c⟩, mem_codeTable.mpr ⟨f, hf, rfl, rfl, rfl, hc⟩, ⟨?_, h2⟩, hk⟩
        rw [fieldAt_ok hl, h1]
    rw [key]
    unfold UmpMessage.tryFrom
    rw [if_neg (by simpa using hb), at'_lt hl, Res.ok_bind, nibble_field _ (by omega)]
    have hlt : field b[0] (4 * 0) 4 < 16 := by
      unfold field; exact Nat.mod_lt _ (by omega)
    rw [show 4 * 0 = 0 from rfl] at *
    generalize field b[0] 0 4 = t at hlt ⊢
    have fixedArms : ∀ {arms : List (Nat × MsgDesc)} {v : Option Nat},
        (∃ d, k = .fixed d ∧ ∃ c, (c, d) ∈ arms ∧ v = some c ∧ d.tryFrom .ump b = .ok b') ↔
        ∃ c, (c, k) ∈ arms.map (fun p => (p.1, UmpKind.fixed p.2)) ∧ v = some c ∧
          k.tryFrom b = .ok b' := by
      intro arms v
      constructor
      · rintro ⟨d, rfl, c, h1, h2, h3⟩
        exact ⟨c, List.mem_map.mpr ⟨_, h1, rfl⟩, h2, h3⟩
      · rintro ⟨c, h1, h2, h3⟩
        obtain ⟨⟨c', d⟩, h4, h5⟩ := List.mem_map.mp h1
        cases h5
        exact ⟨d, rfl, _, h4, h2, h3⟩
    have sx : ∀ s : Sx, ((s.tryFrom b >>= fun y => pure (UmpKind.sysex s, y)) = Res.ok (k, b')) ↔
        ∃ c, (c, k) ∈ [(0, UmpKind.sysex s)] ∧ fieldAt b 0 8 0 = some c ∧ k.tryFrom b = .ok b' := by
      intro s
      constructor
      · intro h
        cases e : s.tryFrom b with
        | ok y => rw [e] at h; cases h; exact ⟨0, List.mem_singleton.mpr rfl, by
            rw [fieldAt_ok hl, field_zero], e⟩
        | err x => rw [e] at h; cases h
        | panic => rw [e] at h; cases h
      · rintro ⟨c, h1, _, h3⟩
        cases List.mem_singleton.mp h1
        have h3 : s.tryFrom b = .ok b' := h3
        rw [h3]; rfl
    rw [families_exists]
    unfold UmpMessage.ofType
    split
    all_goals simp only [Nat.reduceEqDiff, false_and, false_or, or_false, true_and]
    · exact FlexData.tryFrom_iff
    · exact (map_ok_iff (f := UmpKind.fixed)).trans
        ((exists_congr fun d => and_congr_right fun _ => ChannelVoice1.tryFrom_ump_iff).trans fixedArms)
    · exact (map_ok_iff (f := UmpKind.fixed)).trans
        ((exists_congr fun d => and_congr_right fun _ => ChannelVoice2.tryFrom_iff).trans fixedArms)
    · exact sx .s7
    · exact sx .s8
    · exact (map_ok_iff (f := UmpKind.fixed)).trans
        ((exists_congr fun d => and_congr_right fun _ => SystemCommon.tryFrom_ump_iff).trans fixedArms)
    · exact UmpStream.tryFrom_iff
    · exact (map_ok_iff (f := UmpKind.fixed)).trans
        ((exists_congr fun d => and_congr_right fun _ => Utility.tryFrom_iff).trans fixedArms)
    · constructor
      · intro h; cases h
      · intro h
        rcases h with ⟨h, _⟩ | ⟨h, _⟩ | ⟨h, _⟩ | ⟨h, _⟩ | ⟨h, _⟩ | ⟨h, _⟩ | ⟨h, _⟩ | ⟨h, _⟩ <;> contradiction

theorem code_table_sound : ∀ e ∈ codeTable, e ∈ umpTable ∨ e.1 ∈ misfiled := by decide +kernel
theorem code_table_complete : ∀ e ∈ umpTable, e ∈ codeTable ∨ e.1 ∈ misfiled := by decide +kernel
/-- The codes under which the misfiled types are looked up are not theirs. -/
theorem misfiled_wrong : ∀ e ∈ codeTable, e.1 ∈ misfiled → ∀ e' ∈ umpTable, e'.1 = e.1 →
    e'.2.type = e.2.type ∧ e'.2.pos = e.2.pos ∧ e'.2.width = e.2.width ∧ e'.2.code ≠ e.2.code := by
  decide +kernel

/-! ## Bytes -/

theorem bytes_table_cv : ∀ p ∈ ChannelVoice1.arms,
    (BytesKind.fixed p.2, 16 * p.1, 16 * p.1 + 16) ∈ bytesTable := by decide +kernel
theorem bytes_table_sys : ∀ p ∈ SystemCommon.arms,
    (BytesKind.fixed p.2, p.1, p.1 + 1) ∈ bytesTable := by decide +kernel
theorem cv_arms_range : ∀ p ∈ ChannelVoice1.arms, 8 ≤ p.1 ∧ p.1 < 15 := by decide +kernel
theorem sys_arms_range : ∀ p ∈ SystemCommon.arms,
    (0xF1 ≤ p.1 ∧ p.1 ≤ 0xF6) ∨ (0xF8 ≤ p.1 ∧ p.1 ≤ 0xFF) := by decide +kernel
theorem bytes_table_cases : ∀ e ∈ bytesTable,
    (∃ p ∈ ChannelVoice1.arms, e = (.fixed p.2, 16 * p.1, 16 * p.1 + 16)) ∨
    e = (.sysex7, 0xF0, 0xF1) ∨
    (∃ p ∈ SystemCommon.arms, e = (.fixed p.2, p.1, p.1 + 1)) := by decide +kernel

theorem byteAt_some {b : Buf .bytes} (h : b ≠ []) :
    byteAt b = some (b[0]'(head_ne h)).toNat := by
  cases b with
  | nil => exact absurd rfl h
  | cons x b => rfl

/-- What the code's dispatch over bytes does, as a table. -/
theorem BytesMessage.tryFrom_iff {b b' : Buf .bytes} {k : BytesKind} :
    BytesMessage.tryFrom b = .ok (k, b') ↔
      ∃ lo hi s, (k, lo, hi) ∈ bytesTable ∧ byteAt b = some s ∧ lo ≤ s ∧ s < hi ∧
        k.tryFrom b = .ok b' := by
  by_cases hb : b = []
  · subst hb
    constructor
    · intro h; cases h
    · rintro ⟨_, _, _, _, h, _⟩; cases h
  · have hl := head_ne hb
    have hs := byteAt_some hb
    unfold BytesMessage.tryFrom
    rw [if_neg (by simpa using hb), at'_lt hl, Res.ok_bind]
    generalize hse : (b[0]'(head_ne hb)).toNat = s at hs
    unfold BytesMessage.ofStatus
    have rhs : (∃ lo hi s, (k, lo, hi) ∈ bytesTable ∧ byteAt b = some s ∧ lo ≤ s ∧ s < hi ∧
        k.tryFrom b = .ok b') ↔
        ∃ lo hi, (k, lo, hi) ∈ bytesTable ∧ lo ≤ s ∧ s < hi ∧ k.tryFrom b = .ok b' := by
      constructor
      · rintro ⟨lo, hi, s', h1, h2, h3, h4, h5⟩
        rw [hs] at h2; cases h2
        exact ⟨lo, hi, h1, h3, h4, h5⟩
      · rintro ⟨lo, hi, h1, h3, h4, h5⟩
        exact ⟨lo, hi, s, h1, hs, h3, h4, h5⟩
    rw [rhs]
    clear rhs
    split
    · next h =>
      refine (map_ok_iff (f := BytesKind.fixed)).trans ?_
      constructor
      · rintro ⟨d, rfl, hd⟩
        obtain ⟨c, h1, h2, h3⟩ := ChannelVoice1.tryFrom_bytes_iff.mp hd
        rw [hs] at h2
        have h2 : s / 16 = c := Option.some.inj h2
        exact ⟨_, _, bytes_table_cv _ h1, by simp only; omega, by simp only; omega, h3⟩
      · rintro ⟨lo, hi, h1, h3, h4, h5⟩
        rcases bytes_table_cases _ h1 with ⟨⟨c, d⟩, hp, he⟩ | he | ⟨⟨c, d⟩, hp, he⟩ <;> cases he
        · exact ⟨d, rfl, ChannelVoice1.tryFrom_bytes_iff.mpr ⟨c, hp, by
            rw [hs]; show some (s / 16) = some c; congr 1; omega, h5⟩⟩
        · omega
        · have := sys_arms_range _ hp
          simp only at this
          omega
    · next h =>
      split
      · next h0 =>
        constructor
        · intro hh
          cases e : Sxb.tryFrom b with
          | ok y =>
            rw [e] at hh; cases hh
            exact ⟨0xF0, 0xF1, by decide, by omega, by omega, e⟩
          | err x => rw [e] at hh; cases hh
          | panic => rw [e] at hh; cases hh
        · rintro ⟨lo, hi, h1, h3, h4, h5⟩
          rcases bytes_table_cases _ h1 with ⟨⟨c, d⟩, hp, he⟩ | he | ⟨⟨c, d⟩, hp, he⟩ <;> cases he
          · have := cv_arms_range _ hp
            simp only at this
            omega
          · have h5 : Sxb.tryFrom b = .ok b' := h5
            rw [h5]; rfl
          · have := sys_arms_range _ hp
            simp only at this
            omega
      · next h0 =>
        split
        · next h1 =>
          refine (map_ok_iff (f := BytesKind.fixed)).trans ?_
          constructor
          · rintro ⟨d, rfl, hd⟩
            obtain ⟨c, h1, h2, h3⟩ := SystemCommon.tryFrom_bytes_iff.mp hd
            rw [hs] at h2
            have h2 : s = c := Option.some.inj h2
            exact ⟨_, _, bytes_table_sys _ h1, by simp only; omega, by simp only; omega, h3⟩
          · rintro ⟨lo, hi, h1, h3, h4, h5⟩
            rcases bytes_table_cases _ h1 with ⟨⟨c, d⟩, hp, he⟩ | he | ⟨⟨c, d⟩, hp, he⟩ <;> cases he
            · have := cv_arms_range _ hp
              simp only at this
              omega
            · omega
            · have hc : s = c := by clear hp h5; simp only at h3 h4; omega
              exact ⟨d, rfl, SystemCommon.tryFrom_bytes_iff.mpr ⟨c, hp, by rw [hs, hc], h5⟩⟩
        · next h1 =>
          constructor
          · intro hh; cases hh
          · rintro ⟨lo, hi, h1, h3, h4, h5⟩
            rcases bytes_table_cases _ h1 with ⟨⟨c, d⟩, hp, he⟩ | he | ⟨⟨c, d⟩, hp, he⟩ <;> cases he
            · have := cv_arms_range _ hp
              clear hp h5
              simp only at this h3 h4
              omega
            · clear h5; omega
            · have := sys_arms_range _ hp
              clear hp h5
              simp only at this h3 h4
              omega

/-- The status byte that the properties of a fixed-size message demand. -/
def MsgDesc.demands8 (d : MsgDesc) (lo hi : Nat) : Bool :=
  d.props.any (fun p => match p.2 with
    | .cvStatus s => 16 * s.toNat == lo && 16 * s.toNat + 16 == hi
    | .sysStatus s => s.toNat == lo && s.toNat + 1 == hi
    | _ => false)

theorem bytes_table_demands : ∀ e ∈ bytesTable, ∀ d, e.1 = .fixed d →
    d ∈ Msg.hybridAll ∧ d.demands8 e.2.1 e.2.2 = true := by
  have : (bytesTable.all fun e => match e.1 with
    | .fixed d => decide (d ∈ Msg.hybridAll) && d.demands8 e.2.1 e.2.2
    | _ => true) = true := by decide +kernel
  intro e he d hd
  have := List.all_eq_true.mp this e he
  rw [hd] at this
  simpa only [Bool.and_eq_true, decide_eq_true_eq] using this

theorem bytes_table_sysex : ∀ e ∈ bytesTable, e.1 = .sysex7 → e.2 = (0xF0, 0xF1) := by
  decide +kernel

/-- Every accepted slice has a status byte of the table. -/
theorem accepted_status {k : BytesKind} {lo hi : Nat} (he : (k, lo, hi) ∈ bytesTable)
    {b : Buf .bytes} (hok : k.tryFrom b = .ok b) :
    ∃ s, byteAt b = some s ∧ lo ≤ s ∧ s < hi := by
  cases k with
  | fixed d =>
    obtain ⟨h1, h2⟩ := bytes_table_demands _ he d rfl
    have W : d.WellFormed .bytes b := by
      by_cases W : d.WellFormed .bytes b
      · exact W
      · have hok : d.tryFrom .bytes b = .ok b := hok
        rw [(C07_bytes_accepts_exactly h1 b).2 W] at hok; cases hok
    obtain ⟨n, f, hm, hf⟩ := any_prop (q := fun f => match f with
      | .cvStatus s => 16 * s.toNat == lo && 16 * s.toNat + 16 == hi
      | .sysStatus s => s.toNat == lo && s.toNat + 1 == hi
      | _ => false) h2
    have hp := W.2 _ hm
    cases f <;> simp only [Bool.and_eq_true, beq_iff_eq, Bool.false_eq_true] at hf
    · have hp : (b[0]?).map (fun x => x.toNat / 16) = some _ := hp
      cases b with
      | nil => cases hp
      | cons x b =>
        have hp : x.toNat / 16 = _ := Option.some.inj hp
        exact ⟨x.toNat, rfl, by omega, by omega⟩
    · have hp : (b[0]?).map (fun x => x.toNat) = some _ := hp
      cases b with
      | nil => cases hp
      | cons x b =>
        have hp : x.toNat = _ := Option.some.inj hp
        exact ⟨x.toNat, rfl, by omega, by omega⟩
  | sysex7 =>
    have h2 := bytes_table_sysex _ he rfl
    cases h2
    have := ((C07_sysex7_bytes_accepts_exactly b).mp hok).1
    exact ⟨0xF0, by unfold byteAt; rw [this]; rfl, by omega, by omega⟩

end Midi2
