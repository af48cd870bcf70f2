import Verif.Model.FieldsChecked

/-!
# C42: no assertion of a bit accessor fires
-/

namespace Midi2

open BitOps

/-- The element index is within the word. -/
def Rep.within : Rep → Nat → Bool
  | .bool, j => j < 32
  | .u4, j => j < 8
  | .u7, j | .u8, j => j < 4
  | .u14, j | .u16, j => j < 2
  | .u32, _ => true
  | .u7x3, j => j + 2 < 4
  | .u7x4, j => j + 3 < 4

theorem lookup_all {α β : Type} [BEq α] [LawfulBEq α] {p : β → Bool} :
    ∀ {l : List (α × β)} {s : α} {x : β}, (l.all fun y => p y.2) = true → l.lookup s = some x → p x = true
  | (a, y) :: l, s, x, h, hx => by
    simp only [List.all_cons, Bool.and_eq_true] at h
    simp only [List.lookup_cons] at hx
    split at hx
    · cases hx; exact h.1
    · exact lookup_all h.2 hx

theorem umpImpl_within {r : Rep} {s : UmpSchema} {i j : Nat} (h : (umpImpl r).lookup s = some (i, j)) :
    r.within j = true :=
  lookup_all (p := fun x => r.within x.2) (by cases r <;> decide) h

theorem asserting_true {α : Type} {c : Prop} [Decidable c] (h : c) (x : α) :
    asserting (decide c) x = .ok x := by
  rw [decide_eq_true h]; rfl

theorem updateAt_ok {n : Nat} {b : List (BitVec n)} {i : Nat} {f : BitVec n → Res (BitVec n)}
    {g : BitVec n → BitVec n} (h : ∀ w, f w = .ok (g w)) : updateAt b i f = modifyAt b i g := by
  unfold updateAt at' modifyAt
  simp only [h]
  cases hb : b[i]? with
  | none => rfl
  | some w => rfl

theorem modifyAt_twice {n : Nat} (b : List (BitVec n)) (i : Nat) (f g : BitVec n → BitVec n) :
    (modifyAt b i f >>= fun b => modifyAt b i g) = modifyAt b i fun w => g (f w) := by
  unfold modifyAt
  cases hb : b[i]? with
  | none => rfl
  | some w =>
    have hi := (List.getElem?_eq_some_iff.mp hb).1
    simp [hi]

/-- C42: reading a property with the assertions of the bit accessors is reading it without, for
every representation, schema and buffer: no assertion fires. -/
theorem C42_no_assertion_ump_read (r : Rep) (s : UmpSchema) (b : List (BitVec 32)) :
    umpReadChecked r s b = umpRead r s b := by
  unfold umpReadChecked umpRead
  cases h : (umpImpl r).lookup s with
  | none => rfl
  | some x =>
    obtain ⟨i, j⟩ := x
    have hj := umpImpl_within h
    show repReadChecked r i j b = repReadAt r i j b
    unfold repReadChecked repReadAt at'
    cases hb : b[i]? with
    | none => cases r <;> rfl
    | some w =>
      have sept (j : Nat) (hj : j < 4) : get32 w j .septet = .ok (U32.septet w j) := asserting_true hj _
      cases r <;> simp only [Rep.within, decide_eq_true_eq] at hj
      case bool =>
        have : get32 w j .bit = .ok (BitVec.ofBool (U32.bit w j)) := asserting_true hj _
        simp only [Res.ok_bind, bitChecked]
        rw [this]
        cases hw : U32.bit w j <;> rfl
      case u4 => exact asserting_true hj _
      case u7 => exact asserting_true hj _
      case u8 => exact asserting_true hj _
      case u16 => exact asserting_true hj _
      case u32 => rfl
      case u14 =>
        simp only [Res.ok_bind]
        rw [sept _ (show 2 * j < 4 by omega), sept _ (show 2 * j + 1 < 4 by omega)]
        rfl
      case u7x3 =>
        simp only [Res.ok_bind]
        rw [sept _ (show j < 4 by omega), sept _ (show j + 1 < 4 by omega), sept _ hj]
        rfl
      case u7x4 =>
        simp only [Res.ok_bind]
        rw [sept _ (show j < 4 by omega), sept _ (show j + 1 < 4 by omega),
          sept _ (show j + 2 < 4 by omega), sept _ hj]
        rfl

/-- C42: the same of writing. -/
theorem C42_no_assertion_ump_write (r : Rep) (s : UmpSchema) (b : List (BitVec 32)) (v : r.Ty) :
    umpWriteChecked r s b v = umpWrite r s b v := by
  unfold umpWriteChecked umpWrite
  cases h : (umpImpl r).lookup s with
  | none => rfl
  | some x =>
    obtain ⟨i, j⟩ := x
    have hj := umpImpl_within h
    show repWriteChecked r i j b v = repWriteAt r i j b v
    have sept (j : Nat) (hj : j < 4) (b : List (BitVec 32)) (v : BitVec 7) :
        updateAt b i (fun w => set32 w j .septet v) = modifyAt b i fun w => U32.setSeptet w j v :=
      updateAt_ok fun w => asserting_true hj _
    cases r <;> simp only [Rep.within, decide_eq_true_eq] at hj
    case bool =>
      refine updateAt_ok fun w => (asserting_true hj _).trans ?_
      cases v <;> rfl
    case u4 => exact updateAt_ok fun w => asserting_true hj _
    case u7 => exact sept j hj b v
    case u8 => exact updateAt_ok fun w => asserting_true hj _
    case u16 => exact updateAt_ok fun w => asserting_true hj _
    case u32 => rfl
    case u14 =>
      simp only [repWriteChecked, repWriteAt, sept _ (show 2 * j < 4 by omega),
        sept _ (show 2 * j + 1 < 4 by omega), modifyAt_twice]
    case u7x3 =>
      obtain ⟨x, y, z⟩ := v
      simp only [repWriteChecked, repWriteAt, sept _ (show j < 4 by omega),
        sept _ (show j + 1 < 4 by omega), sept _ hj, modifyAt_twice]
    case u7x4 =>
      obtain ⟨x, y, z, t⟩ := v
      simp only [repWriteChecked, repWriteAt, sept _ (show j < 4 by omega),
        sept _ (show j + 1 < 4 by omega), sept _ (show j + 2 < 4 by omega), sept _ hj, modifyAt_twice]

theorem bytesImpl_within {s : BytesSchema} {i j : Nat} (h : (bytesImpl .u4).lookup s = some (i, j)) :
    j < 2 :=
  of_decide_eq_true (lookup_all (p := fun x : Nat × Nat => decide (x.2 < 2)) (by decide) h)

/-- C42: the same of reading over bytes. -/
theorem C42_no_assertion_bytes_read (r : Rep) (s : BytesSchema) (b : List (BitVec 8)) :
    bytesReadChecked r s b = bytesRead r s b := by
  unfold bytesReadChecked bytesRead
  cases r <;> cases h : List.lookup s _ <;> try rfl
  case u4.some x =>
    obtain ⟨i, j⟩ := x
    have hj := bytesImpl_within h
    unfold at'
    cases hb : b[i]? with
    | none => simp only [hb]; rfl
    | some w => simp only [hb]; exact asserting_true hj _

/-- C42: the same of writing over bytes. -/
theorem C42_no_assertion_bytes_write (r : Rep) (s : BytesSchema) (b : List (BitVec 8)) (v : r.Ty) :
    bytesWriteChecked r s b v = bytesWrite r s b v := by
  have sept (i : Nat) (b : List (BitVec 8)) (v : BitVec 7) :
      updateAt b i (fun w => set8 w 0 .septet v) = modifyAt b i fun w => U8.setSeptet w v :=
    updateAt_ok fun w => rfl
  unfold bytesWriteChecked bytesWrite
  cases r <;> cases h : List.lookup s _ <;> try rfl
  case u4.some x =>
    obtain ⟨i, j⟩ := x
    exact updateAt_ok fun w => asserting_true (bytesImpl_within h) _
  case u7.some x => exact sept _ b v
  case u14.some x => simp only [sept]

/-- C42: the same of the alterations of chords. -/
theorem C42_no_assertion_alteration (s : UmpSchema) (b : List (BitVec 32)) :
    alterationOctetChecked s b = (do
      let (i, j) ← implOf alterationImpl s
      return U32.octet (← at' b i) j) := by
  unfold alterationOctetChecked implOf
  cases h : alterationImpl.lookup s with
  | none => rfl
  | some x =>
    obtain ⟨i, j⟩ := x
    have hj : j < 4 :=
      of_decide_eq_true (lookup_all (p := fun x : Nat × Nat => decide (x.2 < 4)) (by decide) h)
    show (at' b i >>= fun w => get32 w j .octet) = at' b i >>= fun w => .ok (U32.octet w j)
    exact congrArg _ (funext fun w => asserting_true hj _)

/-- C42: the same of every payload byte of a packet of a system exclusive message. -/
theorem C42_no_assertion_sysex (k : Sx) (w : BitVec 32) (i : Nat) :
    k.getChecked w i = .ok (k.get w ((i + k.off) % 4)) ∧
    ∀ v, k.setChecked w i v = .ok (k.set w ((i + k.off) % 4) v) := by
  cases k
  · exact ⟨asserting_true (Nat.mod_lt _ (by decide)) _, fun v => asserting_true (Nat.mod_lt _ (by decide)) _⟩
  · exact ⟨asserting_true (Nat.mod_lt _ (by decide)) _, fun v => asserting_true (Nat.mod_lt _ (by decide)) _⟩

-- Properties that are there: the note number of a note on, the bank of a program change; and an
-- index that no schema has.
example : umpReadChecked .u7 ⟨0x00007F00, 0, 0, 0⟩ [0x40903C00, 0] = .ok 0x3C ∧
    umpWriteChecked .u14 ⟨0, 0x00007F7F, 0, 0⟩ [0x40C00001, 0] 0x1FF = .ok [0x40C00001, 0x7F03] ∧
    bytesReadChecked .u4 ⟨0x0F, 0, 0⟩ [0x93, 1, 2] = .ok 3 ∧
    repReadChecked .u7 0 4 [0x40903C00] = .panic ∧ repReadAt .u7 0 4 [0x40903C00] ≠ .panic := by
  decide +kernel

end Midi2
