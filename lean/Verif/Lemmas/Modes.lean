import Verif.Model.Packet
import Verif.Model.SysexBytes
import Verif.Spec.SysexOps

/-! # Computations that agree unless the first panics -/

namespace Midi2

/-- The first computation panics or both give the same outcome. -/
structure Res.Agree {α : Type} (a b : Res α) : Prop where
  eq : a ≠ .panic → b = a

namespace Res.Agree

theorem rfl' {α : Type} (a : Res α) : a.Agree a := ⟨fun _ => rfl⟩

theorem bind {α β : Type} {a b : Res α} {f g : α → Res β} (h : a.Agree b)
    (hf : ∀ x, (f x).Agree (g x)) : (a >>= f).Agree (b >>= g) := by
  refine ⟨fun hp => ?_⟩
  cases a with
  | panic => exact absurd rfl hp
  | err e => rw [h.eq (by intro h; cases h)]; rfl
  | ok x => rw [h.eq (by intro h; cases h)]; exact (hf x).eq hp

theorem ite {α : Type} {c : Prop} [Decidable c] {a a' b b' : Res α} (h1 : a.Agree b)
    (h2 : a'.Agree b') : (if c then a else a').Agree (if c then b else b') := by
  split
  · exact h1
  · exact h2

end Res.Agree

/-- Two implementations of the operations that differ only in where `move_payload_tail`
panics. -/
structure SxOps.AgreeOps {S β : Type} (o o' : SxOps S β) : Prop where
  compact : o.compact = o'.compact
  payloadSize : o.payloadSize = o'.payloadSize
  writeDatum : o.writeDatum = o'.writeDatum
  resize : o.resize = o'.resize
  moveTail : ∀ s i j, (o.moveTail s i j).Agree (o'.moveTail s i j)

namespace SxOps.AgreeOps

variable {S β : Type} {o o' : SxOps S β}

theorem fill (h : AgreeOps o o') (begin est : Nat) (l : List β) (s : S) (w : Nat) :
    o.fill begin est l s w = o'.fill begin est l s w := by
  induction l generalizing s w with
  | nil => rfl
  | cons v rest ih =>
    simp only [SxOps.fill, h.writeDatum]
    split
    · congr 1; funext s; exact ih s (w + 1)
    · rfl

theorem firstGrow (h : AgreeOps o o') (s : S) (a b c d : Nat) :
    o.firstGrow s a b c d = o'.firstGrow s a b c d := by
  simp only [SxOps.firstGrow, h.resize]

theorem growMore (h : AgreeOps o o') (s : S) (a b c d e : Nat) :
    o.growMore s a b c d e = o'.growMore s a b c d e := by
  simp only [SxOps.growMore, h.resize]

theorem mainLoop (h : AgreeOps o o') (begin initial sp : Nat) (fuel : Nat) (s : S) (l : List β)
    (w e a t : Nat) :
    (o.mainLoop begin initial sp fuel s l w e a t).Agree
      (o'.mainLoop begin initial sp fuel s l w e a t) := by
  induction fuel generalizing s l w e a t with
  | zero => exact .rfl' _
  | succ fuel ih =>
    simp only [SxOps.mainLoop, h.fill, h.growMore]
    refine .bind (.rfl' _) fun x => ?_
    refine .ite (.rfl' _) ?_
    refine .bind (.rfl' _) fun _ => ?_
    refine .ite (.rfl' _) ?_
    refine .bind (.rfl' _) fun y => ?_
    refine .bind (h.moveTail _ _ _) fun s => ?_
    exact .ite (.rfl' _) (ih ..)

theorem trySpliceDetail (h : AgreeOps o o') (s : S) (d : Src β) (rb re : Bound) :
    (o.trySpliceDetail s d rb re).Agree (o'.trySpliceDetail s d rb re) := by
  simp only [SxOps.trySpliceDetail, h.compact, h.payloadSize, h.firstGrow, h.resize]
  refine .bind (.rfl' _) fun s => .bind (.rfl' _) fun n => .bind (.rfl' _) fun sp =>
    .bind (.rfl' _) fun x => .bind (.rfl' _) fun t => .bind (h.moveTail _ _ _) fun s =>
    .bind (h.mainLoop ..) fun e => ?_
  cases e with
  | overflow s => exact .rfl' _
  | done s w t => exact .bind (h.moveTail _ _ _) fun s => .rfl' _

theorem trySplice (h : AgreeOps o o') (s : S) (d : Src β) (rb re : Bound) :
    (o.trySplice s d rb re).Agree (o'.trySplice s d rb re) := by
  simp only [SxOps.trySplice, h.resize]
  exact .bind (h.trySpliceDetail ..) fun _ => .rfl' _

theorem splice (h : AgreeOps o o') (s : S) (d : Src β) (rb re : Bound) :
    (o.splice s d rb re).Agree (o'.splice s d rb re) := by
  simp only [SxOps.splice]
  exact .bind (h.trySpliceDetail ..) fun _ => .rfl' _

theorem append (h : AgreeOps o o') (s : S) (d : Src β) :
    (o.append s d).Agree (o'.append s d) := by
  simp only [SxOps.append, h.payloadSize]
  exact .bind (.rfl' _) fun _ => h.splice ..

theorem tryAppend (h : AgreeOps o o') (s : S) (d : Src β) :
    (o.tryAppend s d).Agree (o'.tryAppend s d) := by
  simp only [SxOps.tryAppend, h.payloadSize]
  exact .bind (.rfl' _) fun _ => h.trySplice ..

theorem appendByte (h : AgreeOps o o') (s : S) (v : β) :
    (o.appendByte s v).Agree (o'.appendByte s v) := by
  simp only [SxOps.appendByte, h.payloadSize]
  exact .bind (.rfl' _) fun _ => h.splice ..

theorem tryAppendByte (h : AgreeOps o o') (s : S) (v : β) :
    (o.tryAppendByte s v).Agree (o'.tryAppendByte s v) := by
  simp only [SxOps.tryAppendByte, h.payloadSize]
  exact .bind (.rfl' _) fun _ => h.trySplice ..

theorem setPayload (h : AgreeOps o o') (s : S) (d : Src β) :
    (o.setPayload s d).Agree (o'.setPayload s d) := by
  simp only [SxOps.setPayload, h.resize]
  refine .bind (.rfl' _) fun x => ?_
  obtain ⟨s, r⟩ := x
  cases r with
  | some _ => exact .rfl' _
  | none => exact h.splice ..

theorem trySetPayload (h : AgreeOps o o') (s : S) (d : Src β) :
    (o.trySetPayload s d).Agree (o'.trySetPayload s d) := by
  simp only [SxOps.trySetPayload, h.resize]
  refine .bind (.rfl' _) fun x => ?_
  obtain ⟨s, r⟩ := x
  cases r with
  | some _ => exact .rfl' _
  | none => exact h.trySplice ..

end SxOps.AgreeOps

theorem Sx.ops_agree (k : Sx) (m : Mem) : (k.ops true m).AgreeOps (k.ops false m) where
  compact := rfl
  payloadSize := rfl
  writeDatum := rfl
  resize := rfl
  moveTail s i j := by
    show (k.moveTail true s i j).Agree (k.moveTail false s i j)
    unfold Sx.moveTail
    refine .bind (f := fun _ => _) ?_ fun _ => .rfl' _
    refine ⟨fun h => ?_⟩
    cases hc : k.isCompact s with
    | true => rfl
    | false => exact absurd (by rw [hc]; rfl) h

theorem SxCall.exec_agree {k : Sx} (c : SxCall k) (b : Buf .ump) :
    (c.exec true b).Agree (c.exec false b) := by
  have h := Sx.ops_agree k .vec
  cases c with
  | setGroup g => exact .rfl' _
  | setPayload d => exact h.setPayload b d
  | splicePayload d rb re => exact h.splice b d rb re
  | insertPayload d i => exact h.splice b d _ _
  | appendPayload d => exact h.append b d
  | appendByte v => exact h.appendByte b v
  | setPayloadByte i v => exact .rfl' _

theorem SxTryCall.exec_agree {k : Sx} (c : SxTryCall k) (b : Buf .ump) :
    (c.exec true b).Agree (c.exec false b) := by
  have h := Sx.ops_agree k .fixed
  cases c with
  | setGroup g => exact .rfl' _
  | setPayload d => exact h.trySetPayload b d
  | splicePayload d rb re => exact h.trySplice b d rb re
  | insertPayload d i => exact h.trySplice b d _ _
  | appendPayload d => exact h.tryAppend b d
  | appendByte v => exact h.tryAppendByte b v
  | setPayloadByte i v => exact .rfl' _

theorem Packet.payloadSize_agree (k : Sx) (p : Buf .ump) :
    (Packet.payloadSize true k p).Agree (Packet.payloadSize false k p) := by
  unfold Packet.payloadSize
  refine .bind (.rfl' _) fun w => .bind (.rfl' _) fun n => ?_
  refine ⟨fun h => ?_⟩
  by_cases hn : n > k.cap
  · exact absurd (by simp [hn]) h
  · simp [hn]

end Midi2
