import Verif.Lemmas.Parse
import Verif.Spec.Legal

/-! `validate` decides `Legal`. -/

namespace Midi2

theorem toNat_ext (w : BitVec 32) (s k : Nat) :
    (w.extractLsb' s k).toNat = w.toNat / 2 ^ s % 2 ^ k := by
  simp [Nat.shiftRight_eq_div_pow]

theorem nibble_field (w : BitVec 32) {i : Nat} (h : i < 8) :
    (U32.nibble w i).toNat = field w (4 * i) 4 := by
  rw [U32.nibble_eq, toNat_ext, field]; congr 3; omega
theorem crumb_field (w : BitVec 32) {i : Nat} (h : i < 16) :
    (U32.crumb w i).toNat = field w (2 * i) 2 := by
  rw [U32.crumb_eq, toNat_ext, field]; congr 3; omega
theorem octet_field (w : BitVec 32) {i : Nat} (h : i < 4) :
    (U32.octet w i).toNat = field w (8 * i) 8 := by
  rw [U32.octet_eq, toNat_ext, field]; congr 3; omega

theorem beq_toNat {n : Nat} (x y : BitVec n) : (x == y) = decide (x.toNat = y.toNat) := by
  by_cases h : x = y
  · simp [h]
  · have : x.toNat ≠ y.toNat := fun e => h (BitVec.eq_of_toNat_eq e)
    simp [h, this]

theorem streamStatus_field (w : BitVec 32) : (streamStatusOf w).toNat = field w 6 10 := by
  have : streamStatusOf w = (w.extractLsb' 16 10).setWidth 16 := by
    unfold streamStatusOf
    apply BitVec.eq_of_getLsbD_eq
    intro k hk
    simp only [BitVec.getLsbD_setWidth, BitVec.getLsbD_ushiftRight, BitVec.getLsbD_and, getLsbD_ext,
      hk, decide_true, Bool.true_and]
    by_cases h : k < 10
    · have : (0x03FF0000#32).getLsbD (16 + k) = true := by
        have : ∀ k : Fin 10, (0x03FF0000#32).getLsbD (16 + k.val) = true := by decide
        exact this ⟨k, h⟩
      simp [h, this]
    · have : (0x03FF0000#32).getLsbD (16 + k) = false := by
        have : ∀ j : Fin 6, (0x03FF0000#32).getLsbD (26 + j.val) = false := by decide
        have := this ⟨k - 10, by omega⟩
        rwa [show 26 + (k - 10) = 16 + k by omega] at this
      simp [h, this]
  rw [this, BitVec.toNat_setWidth, toNat_ext, field]
  omega

theorem check_iff (c : Bool) : Res.check c = .ok () ↔ c = true := by cases c <;> simp

theorem check_at {b : List (BitVec 32)} {i : Nat} (h : i < b.length) (p : BitVec 32 → Bool) :
    (at' b i >>= fun w => Res.check (p w)) = .ok () ↔ p b[i] = true := by
  rw [at'_ok h, Res.ok_bind, check_iff]

theorem fieldAt_ok {b : List (BitVec 32)} {i : Nat} (h : i < b.length) (p n : Nat) :
    fieldAt b i p n = some (field b[i] p n) := by
  simp [fieldAt, List.getElem?_eq_getElem h]

theorem chunks_heads [DecidableEq (BitVec 32)] {k : Nat} (hk : 0 < k) (b : List (BitVec 32)) :
    (chunks k b).map head0 = packetHeads k b := by
  generalize hn : b.length = n
  induction n using Nat.strongRecOn generalizing b with
  | ind n ih =>
    cases b with
    | nil => subst hn; simp [chunks_nil, packetHeads, Nat.div_eq_of_lt (show k - 1 < k by omega)]
    | cons w t =>
      rw [chunks_cons hk (by simp), List.map_cons, head0_take hk,
        ih _ (by rw [List.length_drop, ← hn]; simp; omega) _ rfl]
      unfold packetHeads
      have e : ((w :: t).length + k - 1) / k = (((w :: t).drop k).length + k - 1) / k + 1 := by
        rw [List.length_drop]
        simp only [List.length_cons]
        by_cases hle : t.length + 1 ≤ k
        · rw [show t.length + 1 - k = 0 by omega, Nat.zero_add,
            Nat.div_eq_of_lt (show k - 1 < k by omega)]
          rw [Nat.div_eq_sub_div hk (by omega), Nat.div_eq_of_lt (by omega)]
        · rw [Nat.div_eq_sub_div hk (by omega)]
          congr 2; omega
      rw [e, List.range_succ_eq_map, List.map_cons, List.map_map]
      congr 1
      · apply List.map_congr_left
        intro i _
        simp only [Function.comp, List.getElem?_drop]
        congr 2
        rw [Nat.mul_succ, Nat.add_comm]

theorem loop_iff : ∀ l : List (BitVec 32),
    statusesLoopW (fun w => U32.crumb w 2 == 2#2) (fun w => U32.crumb w 2 == 3#2) l = .ok () ↔
      l = [] ∨ ∃ n, l.map (fun w => field w 4 2) = List.replicate n 2 ++ [3]
  | [] => by simp [statusesLoopW]
  | [p] => by
    have : (U32.crumb p 2 == 3#2) = decide (field p 4 2 = 3) := by
      rw [beq_toNat, crumb_field p (i := 2) (by omega)]; rfl
    simp only [statusesLoopW, this]
    constructor
    · intro h
      right
      refine ⟨0, ?_⟩
      by_cases h3 : field p 4 2 = 3
      · simp [h3]
      · simp [h3] at h
    · rintro (h | ⟨n, h⟩)
      · cases h
      · have hl := congrArg List.length h
        simp at hl
        subst hl
        simp at h
        simp [h]
  | p :: q :: rest => by
    have : (U32.crumb p 2 == 2#2) = decide (field p 4 2 = 2) := by
      rw [beq_toNat, crumb_field p (i := 2) (by omega)]; rfl
    simp only [statusesLoopW, this]
    by_cases h2 : field p 4 2 = 2
    · simp only [h2, decide_true, if_true]
      rw [loop_iff (q :: rest)]
      simp only [reduceCtorEq, false_or]
      constructor
      · rintro ⟨n, h⟩
        refine ⟨n + 1, ?_⟩
        rw [List.map_cons, h, h2, List.replicate_succ, List.cons_append]
      · rintro ⟨n, h⟩
        cases n with
        | zero => simp at h
        | succ n =>
          rw [List.map_cons, List.replicate_succ, List.cons_append, List.cons.injEq] at h
          exact ⟨n, h.2⟩
    · simp only [h2, decide_false, Bool.false_eq_true, if_false, reduceCtorEq, false_or, false_iff,
        not_exists]
      intro n h
      cases n with
      | zero => simp at h
      | succ n =>
        rw [List.map_cons, List.replicate_succ, List.cons_append, List.cons.injEq] at h
        exact h2 h.1

theorem statusesW_iff (l : List (BitVec 32)) :
    statusesW (fun w => U32.crumb w 2 == 0#2) (fun w => U32.crumb w 2 == 1#2)
      (fun w => U32.crumb w 2 == 2#2) (fun w => U32.crumb w 2 == 3#2) l = .ok () ↔
      SeqOk (l.map fun w => field w 4 2) := by
  have hc : ∀ (p : BitVec 32) (c : BitVec 2), (U32.crumb p 2 == c) = decide (field p 4 2 = c.toNat) := by
    intro p c
    rw [beq_toNat, crumb_field p (i := 2) (by omega)]
  match l with
  | [] => simp [statusesW, SeqOk]
  | [p] =>
    simp only [statusesW, hc, SeqOk]
    constructor
    · intro h
      by_cases h0 : field p 4 2 = 0
      · left; simp [h0]
      · simp [h0] at h
    · rintro (h | ⟨n, h⟩)
      · simp at h; simp [h]
      · have := congrArg List.length h; simp at this
  | p :: q :: rest =>
    have h1' := hc p 1#2
    have hs : ∀ c : Bool, (U32.crumb p 2 == 1#2) = c →
        statusesW (fun w => U32.crumb w 2 == 0#2) (fun w => U32.crumb w 2 == 1#2)
          (fun w => U32.crumb w 2 == 2#2) (fun w => U32.crumb w 2 == 3#2) (p :: q :: rest) =
        if c = true then statusesLoopW (fun w => U32.crumb w 2 == 2#2)
          (fun w => U32.crumb w 2 == 3#2) (q :: rest) else .err .invalidData := by
      intro c hc'; subst hc'; rfl
    rw [hs _ h1']
    by_cases h1 : field p 4 2 = 1
    · have : (decide (field p 4 2 = (1#2).toNat)) = true := decide_eq_true h1
      rw [this, if_pos rfl, loop_iff]
      simp only [reduceCtorEq, false_or, SeqOk]
      constructor
      · rintro ⟨n, h⟩
        right
        exact ⟨n, by rw [List.map_cons, h, h1]⟩
      · rintro (h | ⟨n, h⟩)
        · simp at h
        · rw [List.map_cons, List.cons.injEq] at h
          exact ⟨n, h.2⟩
    · have : (decide (field p 4 2 = (1#2).toNat)) = false := decide_eq_false h1
      rw [this]
      simp only [Bool.false_eq_true, if_false, reduceCtorEq, false_iff, SeqOk, not_or]
      refine ⟨by simp, ?_⟩
      rintro ⟨n, h⟩
      rw [List.map_cons, List.cons.injEq] at h
      exact h1 h.1

theorem statusesLoopW_no_panic (c e : BitVec 32 → Bool) : ∀ l, statusesLoopW c e l ≠ .panic
  | [] => by simp [statusesLoopW]
  | [p] => by simp only [statusesLoopW]; split <;> simp
  | p :: q :: rest => by
    simp only [statusesLoopW]
    split
    · exact statusesLoopW_no_panic c e (q :: rest)
    · simp

theorem statusesW_no_panic (a b c e : BitVec 32 → Bool) : ∀ l, statusesW a b c e l ≠ .panic
  | [] => by simp [statusesW]
  | [p] => by simp only [statusesW]; split <;> simp
  | p :: q :: rest => by
    simp only [statusesW]
    split
    · exact statusesLoopW_no_panic c e (q :: rest)
    · simp

theorem chunksExact_all {k : Nat} (hk : 0 < k) (b : List (BitVec 32)) (p : BitVec 32 → Bool) :
    (chunksExact k b).all (fun c => p (head0 c)) = true ↔
      ∀ i, k * i + k ≤ b.length → ∃ h : k * i < b.length, p b[k * i] = true := by
  rw [List.all_eq_true]
  constructor
  · intro h i hi
    have hlt : k * i < b.length := by omega
    refine ⟨hlt, ?_⟩
    have e : (chunksExact k b)[i]? = some ((b.drop (k * i)).take k) := by
      rw [chunksExact_getElem? hk, if_pos (by rw [Nat.mul_succ]; exact hi)]
    have := h _ (List.mem_of_getElem? e)
    rw [head0_take hk] at this
    rw [List.drop_eq_getElem_cons hlt] at this
    exact this
  · intro h c hc
    obtain ⟨i, hi⟩ := List.mem_iff_getElem?.mp hc
    rw [chunksExact_getElem? hk] at hi
    split at hi
    · next hle =>
      obtain ⟨hlt, hp⟩ := h i (by rw [Nat.mul_succ] at hle; exact hle)
      cases hi
      rw [head0_take hk, List.drop_eq_getElem_cons hlt]
      exact hp
    · cases hi

theorem ranging_iff {p n : Nat} (s : Nat) (q : BitVec 32 → Bool)
    (hq : ∀ w, q w = decide (field w p n = s)) (b : List (BitVec 32)) :
    Res.check ((chunksExact 4 b).all (fun c => q (head0 c))) = .ok () ↔
      ∀ k, 4 * k + 4 ≤ b.length → fieldAt b (4 * k) p n = some s := by
  rw [check_iff, chunksExact_all (by omega)]
  constructor
  · intro h k hk
    obtain ⟨hl, e⟩ := h k hk
    rw [fieldAt_ok hl]
    rw [hq] at e
    rw [of_decide_eq_true e]
  · intro h k hk
    have hl : 4 * k < b.length := by omega
    refine ⟨hl, ?_⟩
    have := h k hk
    rw [fieldAt_ok hl] at this
    rw [hq]
    exact decide_eq_true (Option.some.inj this)

theorem check_ne_panic (c : Bool) : Res.check c ≠ .panic := by cases c <;> simp

theorem at_check_ne_panic {b : List (BitVec 32)} {i : Nat} (h : i < b.length)
    (p : BitVec 32 → Bool) : (at' b i >>= fun w => Res.check (p w)) ≠ .panic := by
  rw [at'_ok h, Res.ok_bind]; exact check_ne_panic _

theorem controller_iff (i : BitVec 8) :
    Controller.validateIndex i = .ok () ↔ i.toNat ∈ Codes.controllers := by
  have : ∀ i : Fin 256, Controller.validateIndex (BitVec.ofFin i) = .ok () ↔
      (BitVec.ofFin i : BitVec 8).toNat ∈ Codes.controllers := by decide +kernel
  exact this i.toFin

theorem controller_no_panic (i : BitVec 8) : Controller.validateIndex i ≠ .panic := by
  unfold Controller.validateIndex
  split <;> simp

/-- One-word checks. -/
theorem legal_one {b : List (BitVec 32)} {i p n : Nat} (h : i < b.length) (q : BitVec 32 → Bool)
    (L : Nat → Prop) (hq : ∀ w, q w = true ↔ L (field w p n)) :
    ((at' b i >>= fun w => Res.check (q w)) = .ok () ↔ ∃ c, fieldAt b i p n = some c ∧ L c) := by
  rw [check_at h, hq, fieldAt_ok h]
  simp

theorem legal_eq {b : List (BitVec 32)} {i p n : Nat} (h : i < b.length) (q : BitVec 32 → Bool)
    (c : Nat) (hq : ∀ w, q w = true ↔ field w p n = c) :
    ((at' b i >>= fun w => Res.check (q w)) = .ok () ↔ fieldAt b i p n = some c) := by
  rw [check_at h, hq, fieldAt_ok h]
  simp

theorem tonic_legal (n : BitVec 4) : (Tonic.fromNibble n).isSome = true ↔ n.toNat ≤ 7 := by
  have : ∀ i : Fin 16, (Tonic.fromNibble (BitVec.ofFin i)).isSome = true ↔
    (BitVec.ofFin i : BitVec 4).toNat ≤ 7 := by decide +kernel
  exact this n.toFin
theorem csf_legal (n : BitVec 4) :
    (ChordSharpsFlats.fromNibble n).isSome = true ↔ n.toNat ∈ [14, 15, 0, 1, 2] := by
  have : ∀ i : Fin 16, (ChordSharpsFlats.fromNibble (BitVec.ofFin i)).isSome = true ↔
    (BitVec.ofFin i : BitVec 4).toNat ∈ [14, 15, 0, 1, 2] := by decide +kernel
  exact this n.toFin
theorem chordType_legal (n : BitVec 8) :
    (ChordType.fromOctet n).isSome = true ↔ n.toNat ≤ 26 := by
  have : ∀ i : Fin 256, (ChordType.fromOctet (BitVec.ofFin i)).isSome = true ↔
    (BitVec.ofFin i : BitVec 8).toNat ≤ 26 := by decide +kernel
  exact this n.toFin
theorem alteration_legal (n : BitVec 8) :
    (Alteration.fromOctet n).isSome = true ↔ n.toNat / 16 ≤ 4 := by
  have : ∀ i : Fin 256, (Alteration.fromOctet (BitVec.ofFin i)).isSome = true ↔
    (BitVec.ofFin i : BitVec 8).toNat / 16 ≤ 4 := by decide +kernel
  exact this n.toFin
theorem midi1Port_legal (n : BitVec 2) :
    (Midi1Port.fromCrumb n).isSome = true ↔ n.toNat ≠ 3 := by
  have : ∀ i : Fin 4, (Midi1Port.fromCrumb (BitVec.ofFin i)).isSome = true ↔
    (BitVec.ofFin i : BitVec 2).toNat ≠ 3 := by decide +kernel
  exact this n.toFin
theorem direction_legal (n : BitVec 2) :
    (Direction.fromCrumb n).isSome = true ↔ n.toNat ≠ 0 := by
  have : ∀ i : Fin 4, (Direction.fromCrumb (BitVec.ofFin i)).isSome = true ↔
    (BitVec.ofFin i : BitVec 2).toNat ≠ 0 := by decide +kernel
  exact this n.toFin

theorem field_high (w : BitVec 32) (p : Nat) (h : p + 8 ≤ 32) :
    field w p 8 / 16 = field w p 4 := by
  unfold field
  have e : 32 - p - 4 = (32 - p - 8) + 4 := by omega
  rw [e, Nat.pow_add, ← Nat.div_div_eq_div_mul]
  omega

theorem tonic_idx {s : UmpSchema} {i : Nat} (h : implOf tonicImpl s = .ok i) :
    (if s.d4 = 0 then 1 else 3) = i := by
  unfold implOf at h
  split at h
  · next x e =>
    cases h
    simp only [tonicImpl, List.lookup] at e
    split at e
    · next hb => rw [eq_of_beq hb]; cases e; rfl
    · split at e
      · next hb => rw [eq_of_beq hb]; cases e; rfl
      · cases e
  · cases h

theorem chordSF_idx {s : UmpSchema} {i : Nat} (h : implOf chordSharpsFlatsImpl s = .ok i) :
    (if s.d4 = 0 then 1 else 3) = i := by
  unfold implOf at h
  split at h
  · next x e =>
    cases h
    simp only [chordSharpsFlatsImpl, List.lookup] at e
    split at e
    · next hb => rw [eq_of_beq hb]; cases e; rfl
    · split at e
      · next hb => rw [eq_of_beq hb]; cases e; rfl
      · cases e
  · cases h

theorem chordType_idx {s : UmpSchema} {i : Nat} (h : implOf chordTypeImpl s = .ok i) :
    (if s.d4 = 0 then 1 else 3) = i := by
  unfold implOf at h
  split at h
  · next x e =>
    cases h
    simp only [chordTypeImpl, List.lookup] at e
    split at e
    · next hb => rw [eq_of_beq hb]; cases e; rfl
    · split at e
      · next hb => rw [eq_of_beq hb]; cases e; rfl
      · cases e
  · cases h

theorem alteration_idx {s : UmpSchema} {i j : Nat} (h : implOf alterationImpl s = .ok (i, j)) :
    (if s.d2 ≠ 0 then 1 else if s.d3 ≠ 0 then 2 else 3) = i ∧
    (if s.d3 = 0xFF000000 then 0
       else if s.d3 = 0x00FF0000 then 8
       else if s.d2 = 0x0000FF00 ∨ s.d4 = 0x0000FF00 then 16 else 24) = 8 * j ∧ j < 4 := by
  unfold implOf at h
  split at h
  · next x e =>
    cases h
    simp only [alterationImpl, List.lookup] at e
    split at e
    · next hb => rw [eq_of_beq hb]; cases e; exact ⟨rfl, rfl, by omega⟩
    · split at e
      · next hb => rw [eq_of_beq hb]; cases e; exact ⟨rfl, rfl, by omega⟩
      · split at e
        · next hb => rw [eq_of_beq hb]; cases e; exact ⟨rfl, rfl, by omega⟩
        · split at e
          · next hb => rw [eq_of_beq hb]; cases e; exact ⟨rfl, rfl, by omega⟩
          · split at e
            · next hb => rw [eq_of_beq hb]; cases e; exact ⟨rfl, rfl, by omega⟩
            · split at e
              · next hb => rw [eq_of_beq hb]; cases e; exact ⟨rfl, rfl, by omega⟩
              · cases e
  · cases h

/-- Validation of a UMP property never panics and decides legality. -/
theorem Fld.validate32_iff (f : Fld) (him : f.implemented = true) {b : List (BitVec 32)}
    (hn : f.umpBits.need ≤ b.length) :
    (f.validate32 b = .ok () ↔ f.Legal b) ∧ f.validate32 b ≠ .panic := by
  cases f
  case hybrid | schema | utilData | u20Data | programBank | flexOptionalChannel | keySharpsFlats | uiHint =>
    exact ⟨⟨fun _ => trivial, fun _ => rfl⟩, by simp [validate32]⟩
  case umpType t =>
    have h0 : 0 < b.length := Nat.lt_of_lt_of_le (show 0 < 1 by omega) hn
    exact ⟨legal_eq h0 _ _ (fun w => by
      rw [beq_toNat, nibble_field w (i := 0) (by omega), decide_eq_true_iff]), at_check_ne_panic h0 _⟩
  case cvStatus t =>
    have h0 : 0 < b.length := Nat.lt_of_lt_of_le (show 0 < 1 by omega) hn
    exact ⟨legal_eq h0 _ _ (fun w => by
      rw [beq_toNat, nibble_field w (i := 2) (by omega), decide_eq_true_iff]), at_check_ne_panic h0 _⟩
  case sysStatus t =>
    have h0 : 0 < b.length := Nat.lt_of_lt_of_le (show 0 < 1 by omega) hn
    exact ⟨legal_eq h0 _ _ (fun w => by
      rw [beq_toNat, octet_field w (i := 1) (by omega), decide_eq_true_iff]), at_check_ne_panic h0 _⟩
  case noteAttribute =>
    have h0 : 0 < b.length := Nat.lt_of_lt_of_le (by decide) hn
    exact ⟨legal_one h0 _ (fun c => c ≤ 3) (fun w => by
      rw [octet_field w (i := 3) (by omega), decide_eq_true_iff]), at_check_ne_panic h0 _⟩
  case controller =>
    have h0 : 0 < b.length := Nat.lt_of_lt_of_le (by decide) hn
    simp only [validate32, Legal, at'_ok h0, Res.ok_bind, controller_iff, fieldAt_ok h0,
      octet_field b[0] (i := 3) (by omega)]
    exact ⟨by simp, controller_no_panic _⟩
  case flexStatus s =>
    exact ⟨ranging_iff s.toNat (fun w => U32.octet w 3 == s)
        (fun w => by rw [beq_toNat, octet_field w (i := 3) (by omega)]) b,
      check_ne_panic _⟩
  case flexBank s =>
    exact ⟨ranging_iff s.toNat (fun w => U32.octet w 2 == s)
        (fun w => by rw [beq_toNat, octet_field w (i := 2) (by omega)]) b,
      check_ne_panic _⟩
  case streamStatus s =>
    exact ⟨ranging_iff s.toNat (fun w => streamStatusOf w == s)
        (fun w => by rw [beq_toNat, streamStatus_field]) b,
      check_ne_panic _⟩
  case flexFormat t =>
    have h0 : 0 < b.length := Nat.lt_of_lt_of_le (show 0 < 1 by omega) hn
    exact ⟨legal_eq h0 _ _ (fun w => by
      rw [beq_toNat, crumb_field w (i := 4) (by omega), decide_eq_true_iff, eq_comm]),
      at_check_ne_panic h0 _⟩
  case flexNoChannel =>
    have h0 : 0 < b.length := Nat.lt_of_lt_of_le (by decide) hn
    refine ⟨legal_one h0 _ (fun c => c ≠ 0) (fun w => ?_), at_check_ne_panic h0 _⟩
    rw [bne, beq_toNat, crumb_field w (i := 5) (by omega)]; simp
  case midi1Port =>
    have h0 : 0 < b.length := Nat.lt_of_lt_of_le (by decide) hn
    exact ⟨legal_one h0 _ (fun c => c ≠ 3) (fun w => by
      rw [midi1Port_legal, crumb_field w (i := 14) (by omega)]), at_check_ne_panic h0 _⟩
  case direction =>
    have h0 : 0 < b.length := Nat.lt_of_lt_of_le (by decide) hn
    exact ⟨legal_one h0 _ (fun c => c ≠ 0) (fun w => by
      rw [direction_legal, crumb_field w (i := 15) (by omega)]), at_check_ne_panic h0 _⟩
  case tonic s =>
    obtain ⟨i, hi⟩ := implOf_ok him
    have h0 : i < b.length := Nat.lt_of_lt_of_le (lt_need (tonic_ne hi)) hn
    simp only [validate32, Legal, hi, Res.ok_bind, tonic_idx hi]
    exact ⟨legal_one h0 _ (fun c => c ≤ 7) (fun w => by
      rw [tonic_legal, nibble_field w (i := 1) (by omega)]), at_check_ne_panic h0 _⟩
  case chordSharpsFlats s =>
    obtain ⟨i, hi⟩ := implOf_ok him
    have h0 : i < b.length := Nat.lt_of_lt_of_le (lt_need (chordSF_ne hi)) hn
    simp only [validate32, Legal, hi, Res.ok_bind, chordSF_idx hi]
    exact ⟨legal_one h0 _ (fun c => c ∈ [14, 15, 0, 1, 2]) (fun w => by
      rw [csf_legal, nibble_field w (i := 0) (by omega)]), at_check_ne_panic h0 _⟩
  case chordType s =>
    obtain ⟨i, hi⟩ := implOf_ok him
    have h0 : i < b.length := Nat.lt_of_lt_of_le (lt_need (chordType_ne hi)) hn
    simp only [validate32, Legal, hi, Res.ok_bind, chordType_idx hi]
    exact ⟨legal_one h0 _ (fun c => c ≤ 26) (fun w => by
      rw [chordType_legal, octet_field w (i := 1) (by omega)]), at_check_ne_panic h0 _⟩
  case alteration s =>
    obtain ⟨⟨i, j⟩, hi⟩ := implOf_ok him
    have h0 : i < b.length := Nat.lt_of_lt_of_le (lt_need (alteration_ne hi)) hn
    obtain ⟨e1, e2, e3⟩ := alteration_idx hi
    simp only [validate32, Legal, hi, Res.ok_bind, e1, e2]
    exact ⟨legal_one h0 _ (fun c => c ≤ 4) (fun w => by
      rw [alteration_legal, octet_field w e3, field_high _ _ (by omega)]), at_check_ne_panic h0 _⟩
  case streamFormats =>
    simp only [validate32, Legal]
    rw [validateStatuses_eq 4 0xF#4 (fun w => U32.crumb w 2 == 0#2) (fun w => U32.crumb w 2 == 1#2)
      (fun w => U32.crumb w 2 == 2#2) (fun w => U32.crumb w 2 == 3#2)]
    refine ⟨?_, statusesW_no_panic _ _ _ _ _⟩
    rw [statusesW_iff, chunks_heads (by omega)]
    have : (fun w => U32.nibble w 0 == 0xF#4) = (fun w => decide (field w 0 4 = 15)) := by
      funext w
      rw [beq_toNat, nibble_field w (i := 0) (by omega)]; rfl
    rw [this]

/-- Validation of a byte property never panics and decides legality. -/
theorem Fld.validate8_iff (f : Fld) (him : f.implemented8 = true) {b : List (BitVec 8)}
    (hn : 0 < b.length) :
    (f.validate8 b = .ok () ↔ f.Legal8 b) ∧ f.validate8 b ≠ .panic := by
  cases f
  case umpType | hybrid | schema => exact ⟨⟨fun _ => trivial, fun _ => rfl⟩, by simp [validate8]⟩
  case cvStatus s =>
    simp only [validate8, Legal8, at'_ok hn, Res.ok_bind, check_iff]
    refine ⟨?_, check_ne_panic _⟩
    rw [beq_toNat, decide_eq_true_iff, List.getElem?_eq_getElem hn, Option.map_some,
      Option.some.injEq]
    have : (U8.nibble b[0] 0).toNat = b[0].toNat / 16 := by
      rw [U8.nibble_eq]
      have := b[0].isLt
      simp [Nat.shiftRight_eq_div_pow]; omega
    rw [this]
  case sysStatus s =>
    simp only [validate8, Legal8, at'_ok hn, Res.ok_bind, check_iff]
    refine ⟨?_, check_ne_panic _⟩
    rw [beq_toNat, decide_eq_true_iff, List.getElem?_eq_getElem hn, Option.map_some,
      Option.some.injEq]
  all_goals exact absurd (show false = true from him) (by decide)

theorem validateProps_no_panic {m : Fmt} {ps : List (String × Fld)} {b : Buf m}
    (h : ∀ p ∈ ps, p.2.validate m b ≠ .panic) : validateProps m ps b ≠ .panic := by
  induction ps with
  | nil => simp [validateProps]
  | cons p ps ih =>
    obtain ⟨n, f⟩ := p
    simp only [validateProps]
    have h1 := h _ List.mem_cons_self
    have h2 := ih fun p hp => h p (List.mem_cons_of_mem _ hp)
    cases e : f.validate m b with
    | ok u => simpa [e] using h2
    | err _ => simp
    | panic => exact absurd e h1

theorem validate_err {m : Fmt} (f : Fld) (b : Buf m) (e : Error) (h : f.validate m b = .err e) :
    e = .invalidData := by
  have hc : ∀ c : Bool, Res.check c = .err e → e = .invalidData := by
    intro c hc; cases c <;> simp at hc; exact hc.symm
  have ha : ∀ {n : Nat} {x : List (BitVec n)} {i : Nat} {g : BitVec n → Res Unit},
      (∀ w, g w = .err e → e = .invalidData) → (at' x i >>= g) = .err e → e = .invalidData := by
    intro n x i g hg hh
    unfold at' at hh
    split at hh
    · exact hg _ hh
    · cases hh
  have hi : ∀ {β : Type} {t : List (UmpSchema × β)} {s : UmpSchema} {g : β → Res Unit},
      (∀ w, g w = .err e → e = .invalidData) → (implOf t s >>= g) = .err e → e = .invalidData := by
    intro β t s g hg hh
    unfold implOf at hh
    split at hh
    · exact hg _ hh
    · cases hh
  cases m with
  | ump =>
    cases f
    case hybrid | schema | utilData | u20Data | programBank | flexOptionalChannel | keySharpsFlats | uiHint =>
      cases h
    case tonic | chordSharpsFlats | chordType | alteration =>
      exact hi (fun w hw => ha (fun w hw => hc _ hw) hw) h
    case flexStatus | flexBank | streamStatus => exact hc _ h
    case controller =>
      refine ha (fun w hw => ?_) h
      unfold Controller.validateIndex at hw
      split at hw <;> cases hw
      rfl
    case streamFormats =>
      have h : statusesW _ _ _ _ _ = _ := (validateStatuses_eq 4 0xF#4
        (fun w => U32.crumb w 2 == 0#2) (fun w => U32.crumb w 2 == 1#2)
        (fun w => U32.crumb w 2 == 2#2) (fun w => U32.crumb w 2 == 3#2) b).symm.trans h
      have hl : ∀ (c d : BitVec 32 → Bool) l, statusesLoopW c d l = .err e → e = .invalidData := by
        intro c d l
        induction l with
        | nil => intro h; cases h
        | cons p l ih =>
          cases l with
          | nil => simp only [statusesLoopW]; split <;> intro h <;> cases h; rfl
          | cons q l =>
            simp only [statusesLoopW]
            split
            · exact ih
            · intro h; cases h; rfl
      revert h
      generalize List.takeWhile _ _ = l
      match l with
      | [] => intro h; cases h; rfl
      | [p] => simp only [statusesW]; split <;> intro h <;> cases h; rfl
      | p :: q :: l =>
        simp only [statusesW]
        split
        · exact hl _ _ _
        · intro h; cases h; rfl
    all_goals exact ha (fun w hw => hc _ hw) h
  | bytes =>
    cases f
    case cvStatus | sysStatus => exact ha (fun w hw => hc _ hw) h
    all_goals cases h

theorem validateProps_err {m : Fmt} {ps : List (String × Fld)} {b : Buf m} {e : Error}
    (h : validateProps m ps b = .err e) : e = .invalidData := by
  induction ps with
  | nil => cases h
  | cons p ps ih =>
    obtain ⟨n, f⟩ := p
    simp only [validateProps] at h
    cases e' : f.validate m b with
    | ok u => rw [e'] at h; exact ih h
    | err _ => rw [e'] at h; cases h; exact validate_err f b _ e'
    | panic => rw [e'] at h; cases h

end Midi2
