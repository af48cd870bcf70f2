import Verif.Lemmas.UsizeCalls
import Verif.Spec.UsizeBytes

/-! # Fallible calls on byte messages: exact arithmetic, agreement and small operands -/

namespace Midi2

theorem SxTryCall.execBytesU_unbounded (c : SxTryCall .s7) (b : Buf .bytes) :
    c.execBytesU .unbounded b = c.execBytes b := by
  have e : Sxb.opsU .unbounded true = Sxb.ops .fixed := Sxb.opsU_unbounded true
  cases c with
  | setGroup g => rfl
  | setPayload d => exact (SxOps.trySetPayloadU_unbounded ..).trans (by rw [e]; rfl)
  | splicePayload d rb re => exact (SxOps.trySpliceU_unbounded ..).trans (by rw [e]; rfl)
  | insertPayload d i => exact (SxOps.trySpliceU_unbounded ..).trans (by rw [e]; rfl)
  | appendPayload d =>
    show (Sxb.opsU .unbounded true).tryAppendU .unbounded b d = _
    rw [e]
    show (_ >>= fun n => (Sxb.ops .fixed).trySpliceU .unbounded b d _ _) = _
    simp only [SxOps.trySpliceU_unbounded]
    rfl
  | appendByte v =>
    show (Sxb.opsU .unbounded true).tryAppendByteU .unbounded b v = _
    rw [e]
    show (_ >>= fun n => (Sxb.ops .fixed).trySpliceU .unbounded b _ _ _) = _
    simp only [SxOps.trySpliceU_unbounded]
    rfl
  | setPayloadByte i v => rfl

theorem SxTryCall.execAllBytesU_unbounded (cs : List (SxTryCall .s7)) (b : Buf .bytes) :
    SxTryCall.execAllBytesU .unbounded cs b = SxTryCall.execAllBytes cs b := by
  induction cs generalizing b with
  | nil => rfl
  | cons c cs ih =>
    unfold SxTryCall.execAllBytesU SxTryCall.execAllBytes
    rw [c.execBytesU_unbounded]
    simp only [ih]

namespace Arith.Agree

variable {A A' : Arith}

theorem tryExecBytes (hA : A.Agree A') (c : SxTryCall .s7) (b : Buf .bytes) :
    (c.execBytesU A b).Agree (c.execBytesU A' b) := by
  have h := hA.opsBytes true
  cases c with
  | setGroup g => exact .rfl' _
  | setPayload d => exact h.trySetPayload hA b d
  | splicePayload d rb re => exact h.trySplice hA b d rb re
  | insertPayload d i => exact h.trySplice hA b d _ _
  | appendPayload d => exact h.tryAppend hA b d
  | appendByte v => exact h.tryAppendByte hA b v
  | setPayloadByte i v => exact .bind (hA.setByteBytes ..) fun _ => .rfl' _

theorem tryExecAllBytes (hA : A.Agree A') (cs : List (SxTryCall .s7)) (b : Buf .bytes) :
    (SxTryCall.execAllBytesU A cs b).Agree (SxTryCall.execAllBytesU A' cs b) := by
  induction cs generalizing b with
  | nil => exact .rfl' _
  | cons c cs ih => exact .bind (hA.tryExecBytes c b) fun x => .bind (ih x.1) fun _ => .rfl' _

end Arith.Agree

/-- A buffer of fixed size with at most `M` bytes. -/
theorem Sxb.fixed_fits {w M L : Nat} (hM : 4 ≤ M) (hL : L ≤ M) (hw : 1024 * M ≤ 2 ^ w) :
    (opsU .unbounded true).FitsIn (opsU (.checked w) true)
      (fun b => b.length = L) (fun b => b.length = L) M (8 * M + 1) w where
  fits := by
    have hr : ∀ {s : Buf .bytes} {n}, s.length = L → n ≤ 20 * M + 4 →
        (tryResizeFixedU .unbounded s n).Under (tryResizeFixedU (.checked w) s n)
        fun r => r.1.length = L ∧ match r.2 with
          | some sz => some (L - 2) = some sz
          | none => ∀ c, some (L - 2) = some c → n ≤ c := by
      intro s n hs hn
      refine (tryResizeFixed_fits s n (by omega) (by omega)).weaken fun r hr => ⟨by omega, ?_⟩
      by_cases h : n + 2 ≤ s.length
      · rw [hr.2, if_pos h]
        intro c hc
        cases hc
        omega
      · rw [hr.2, if_neg h, hs]
    refine ⟨8 * M, 20 * M + 4, some (L - 2), ?_, by omega, by omega, by omega,
      fun c hc => by cases hc; omega⟩
    exact {
      small := fun h => h
      compact := fun h => .ok h
      payloadSize := fun {s} h => (payloadSize_fits s (by omega)).weaken fun n hn => by omega
      moveTail := fun {s i j} h hi hj => (moveTail_fits s i j (by omega)).weaken
        fun b hb => by omega
      writeDatum := fun {s v i} h hi => (writeDatum_fits s v i (by omega)).weaken
        fun b hb => by omega
      resize := fun h hn => hr h hn
      reset := fun h => (hr h (Nat.zero_le _)).weaken fun r h => h.1 }
  le := by omega
  pos := by omega

theorem SxTryCall.execBytes_fits {w M : Nat} (hM : 4 ≤ M) (hw : 1024 * M ≤ 2 ^ w) (c : SxTryCall .s7)
    (b : Buf .bytes) (hb : b.length ≤ M) (hc : c.Small M) :
    (c.execBytesU .unbounded b).Under (c.execBytesU (.checked w) b) fun r => r.1.length = b.length := by
  have h := Sxb.fixed_fits (w := w) (L := b.length) hM hb hw
  cases c with
  | setGroup g => exact .ok rfl
  | setPayload d => exact h.trySetPayload b d rfl hc.items hc.estimate
  | splicePayload d rb re =>
    exact h.trySplice b d rb re rfl hc.1.items hc.1.estimate (hc.2.1.mono (by omega))
      (hc.2.2.mono (by omega))
  | insertPayload d i =>
    have := hc.2
    exact h.tryInsert b d i rfl hc.1.items hc.1.estimate (by omega)
  | appendPayload d => exact h.tryAppend b d rfl hc.items hc.estimate
  | appendByte v => exact h.tryAppendByte b v rfl
  | setPayloadByte i v => exact .bind (Sxb.setByte_fits b v i (by omega)) fun b' hb => .ok hb

theorem SxTryCall.execAllBytes_fits {w M : Nat} (hM : 4 ≤ M) (hw : 1024 * M ≤ 2 ^ w)
    (cs : List (SxTryCall .s7)) (b : Buf .bytes) (hb : b.length ≤ M) (h : ∀ c ∈ cs, SxTryCall.Small M c) :
    (SxTryCall.execAllBytesU .unbounded cs b).Under (SxTryCall.execAllBytesU (.checked w) cs b)
      fun _ => True := by
  induction cs generalizing b with
  | nil => exact .same _
  | cons c cs ih =>
    exact .bind (c.execBytes_fits hM hw b hb (h c (by simp))) fun r hr =>
      .bind (ih r.1 (by omega) fun c hc => h c (by simp [hc])) fun _ _ => .same _

end Midi2
