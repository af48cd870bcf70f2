import Verif.Props.TextHistory

/-!
# Words behind the last whole packet of a buffer

The setters of text messages do not touch them.
-/

namespace Midi2

/-- Same length, and the same words behind the last whole packet. -/
def SameTail (b b' : Buf .ump) : Prop :=
  b'.length = b.length ∧ ∀ a, b.length / 4 ≤ a / 16 → octetAt b' a = octetAt b a

theorem SameTail.refl (b : Buf .ump) : SameTail b b := ⟨rfl, fun _ _ => rfl⟩

theorem SameTail.trans {a b c : Buf .ump} (h : SameTail a b) (h' : SameTail b c) : SameTail a c :=
  ⟨h'.1.trans h.1, fun i hi => (h'.2 i (by rw [h.1]; exact hi)).trans (h.2 i hi)⟩

/-- What is behind the last whole packet is zero. -/
def ZeroTail (b : Buf .ump) : Prop :=
  ∀ a, b.length / 4 ≤ a / 16 → a < 4 * b.length → octetAt b a = some 0

theorem ZeroTail.same {b b' : Buf .ump} (h : ZeroTail b) (s : SameTail b b') : ZeroTail b' :=
  fun a ha hl => (s.2 a (by rw [s.1] at ha; exact ha)).trans
    (h a (by rw [s.1] at ha; exact ha) (by rw [s.1] at hl; exact hl))

theorem zeroTail_whole {b : Buf .ump} {n : Nat} (h : b.length = 4 * n) : ZeroTail b :=
  fun a ha hl => absurd hl (by omega)

namespace FlexText

theorem setGroup_tail (b : Buf .ump) (g : BitVec 4) : SameTail b (setGroup b g) := by
  refine ⟨setGroup_length b g, fun a ha => ?_⟩
  unfold octetAt
  rw [setGroup_word, if_neg]
  rintro ⟨-, h⟩
  obtain ⟨h1, -⟩ := leading_spec (by decide) _ b _ h
  omega

theorem trySetText_tail {b b' : Buf .ump} {w : BitVec 32} (hw : b[0]? = some w) {s : String}
    (h : trySetText b s = .ok b') : SameTail b b' := by
  by_cases hf : 4 * textPackets 12 (strBytes s).length ≤ b.length
  · obtain ⟨x, x1, x2, -, x4⟩ := fill_full hw (strBytes s) hf
    unfold trySetText fixedTryResize at h
    simp only at h
    rw [if_neg (by rw [sizeForStr_eq]; omega), Res.ok_bind] at h
    cases x1.symm.trans h
    exact ⟨x2, x4⟩
  · rw [trySetText_overflow b s (by omega)] at h
    cases h

theorem setChannel_tail {b b' : Buf .ump} (hb : 4 ≤ b.length) {c : Option (BitVec 4)}
    (h : setChannel b c = .ok b') : SameTail b b' := by
  have h : modifyAt b 0 (putChannel c) = .ok b' := h
  unfold modifyAt at h
  split at h
  · cases h
    refine ⟨List.length_set, fun a ha => ?_⟩
    unfold octetAt
    rw [List.getElem?_set_ne (by omega)]
  · cases h

theorem exec_tail {b b' : Buf .ump} {w : BitVec 32} (hw : b[0]? = some w) (hb : 4 ≤ b.length) (o : Op)
    {e : Option Error} (h : o.exec true b = .ok (b', e)) : SameTail b b' := by
  cases o with
  | setText s =>
    have h : (match trySetText b s with
      | .ok b' => Res.ok (b', (none : Option Error))
      | .err e => .ok (b, some e)
      | .panic => .panic) = _ := h
    cases ht : trySetText b s with
    | ok x => rw [ht] at h; cases h; exact trySetText_tail hw ht
    | err e => rw [ht] at h; cases h; exact .refl b
    | panic => rw [ht] at h; cases h
  | setGroup g => cases h; exact setGroup_tail b g
  | setChannel c =>
    have h : (setChannel b c >>= fun b' => Res.ok (b', (none : Option Error))) = _ := h
    cases hc : setChannel b c with
    | ok x => rw [hc] at h; cases h; exact setChannel_tail hb hc
    | err e => rw [hc] at h; cases h
    | panic => rw [hc] at h; cases h

theorem Follows.tail {t : FlexText} : ∀ (os : List Op) {b0 b : Buf .ump} {st : State} {told : Bool},
    Follows true t b0 b st told → ∀ x, Op.execAll true os b = .ok x → SameTail b x.1
  | [], _, b, _, _, _, x, h => by cases h; exact .refl b
  | o :: os, b0, b, st, told, F, x, h => by
    obtain ⟨b1, h1, h2⟩ := F.step o
    obtain ⟨w, hw, -⟩ := backs_word F.backs
    have T := exec_tail hw F.backs.len o h1
    have h : (o.exec true b >>= fun x => Op.execAll true os x.1 >>= fun y => Res.ok (y.1, x.2 :: y.2)) =
      _ := h
    rw [h1] at h
    have h : (Op.execAll true os b1 >>= fun y => Res.ok (y.1, _ :: y.2)) = .ok x := h
    cases hx : Op.execAll true os b1 with
    | err e => rw [hx] at h; cases h
    | panic => rw [hx] at h; cases h
    | ok y =>
      rw [hx] at h
      cases h
      by_cases hf : o.Fits (room true b0) = true
      · rw [if_pos hf] at h2
        exact T.trans (Follows.tail os h2 y hx)
      · rw [if_neg hf] at h2
        subst h2
        exact Follows.tail os F y hx

end FlexText

namespace StreamText

variable {t : StreamText}

theorem setBlock_tail (b : Buf .ump) (n : BitVec 8) : SameTail b (setBlock b n) := by
  refine ⟨setBlock_length b n, fun a ha => ?_⟩
  rw [setBlock_octet, if_neg (by omega)]

theorem trySetText_tail (K : t.Known) {b b' : Buf .ump} {w : BitVec 32} (hw : b[0]? = some w)
    {s : String} (h : t.trySetText b s = .ok b') : SameTail b b' := by
  by_cases hf : 4 * textPackets (14 - t.offset) (strBytes s).length ≤ b.length
  · obtain ⟨x, x1, x2, -, x4⟩ := fill_full K.off hw (strBytes s) hf
    unfold trySetText fixedTryResize at h
    simp only at h
    rw [if_neg (by rw [sizeForStr_eq K.off]; omega), Res.ok_bind] at h
    cases x1.symm.trans h
    exact ⟨x2, x4⟩
  · rw [trySetText_overflow K b s (by omega)] at h
    cases h

theorem exec_tail (K : t.Known) {b b' : Buf .ump} {w : BitVec 32} (hw : b[0]? = some w) (o : Op)
    {e : Option Error} (h : o.exec t true b = .ok (b', e)) : SameTail b b' := by
  cases o with
  | setText s =>
    have h : (match t.trySetText b s with
      | .ok b' => Res.ok (b', (none : Option Error))
      | .err e => .ok (b, some e)
      | .panic => .panic) = _ := h
    cases ht : t.trySetText b s with
    | ok x => rw [ht] at h; cases h; exact trySetText_tail K hw ht
    | err e => rw [ht] at h; cases h; exact .refl b
    | panic => rw [ht] at h; cases h
  | setBlock n => cases h; exact setBlock_tail b n

theorem Follows.tail (K : t.Known) : ∀ (os : List Op) {b0 b : Buf .ump} {st : Numbers}
    {last : Option String}, (t.offset = 1 ∨ ∀ o ∈ os, ∃ s, o = .setText s) →
    Follows true t b0 b st last → ∀ x, Op.execAll t true os b = .ok x → SameTail b x.1
  | [], _, b, _, _, _, _, x, h => by cases h; exact .refl b
  | o :: os, b0, b, st, last, ho, F, x, h => by
    obtain ⟨b1, h1, h2⟩ := F.step K o (ho.imp id fun h => h o List.mem_cons_self)
    have ho' : t.offset = 1 ∨ ∀ o ∈ os, ∃ s, o = .setText s :=
      ho.imp id fun h o ho => h o (List.mem_cons_of_mem _ ho)
    obtain ⟨w, hw, -⟩ := backs_word K F.backs
    have T := exec_tail K hw o h1
    have h : (o.exec t true b >>= fun x => Op.execAll t true os x.1 >>= fun y =>
      Res.ok (y.1, x.2 :: y.2)) = _ := h
    rw [h1] at h
    have h : (Op.execAll t true os b1 >>= fun y => Res.ok (y.1, _ :: y.2)) = .ok x := h
    cases hx : Op.execAll t true os b1 with
    | err e => rw [hx] at h; cases h
    | panic => rw [hx] at h; cases h
    | ok y =>
      rw [hx] at h
      cases h
      by_cases hf : o.Fits t (room true b0) = true
      · rw [if_pos hf] at h2
        exact T.trans (Follows.tail K os ho' h2 y hx)
      · rw [if_neg hf] at h2
        subst h2
        exact Follows.tail K os ho' F y hx

end StreamText

end Midi2
