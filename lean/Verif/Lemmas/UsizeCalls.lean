import Verif.Lemmas.UsizeOps
import Verif.Lemmas.SysexHold

/-! # Small operands: histories of calls -/

namespace Midi2

/-! ### Exact arithmetic is the model of the other files -/

theorem SxCall.execU_unbounded {k : Sx} (c : SxCall k) (dbg : Bool) (b : Buf .ump) :
    c.execU .unbounded dbg b = c.exec dbg b := by
  cases c with
  | setGroup g => rfl
  | setPayload d => exact (SxOps.setPayloadU_unbounded ..).trans (by rw [Sx.opsU_unbounded]; rfl)
  | splicePayload d rb re => exact (SxOps.spliceU_unbounded ..).trans (by rw [Sx.opsU_unbounded]; rfl)
  | insertPayload d i => exact (SxOps.spliceU_unbounded ..).trans (by rw [Sx.opsU_unbounded]; rfl)
  | appendPayload d =>
    show (k.opsU .unbounded dbg .vec).appendU .unbounded b d = _
    rw [Sx.opsU_unbounded]
    show (_ >>= fun n => (k.ops dbg .vec).spliceU .unbounded b d _ _) = _
    simp only [SxOps.spliceU_unbounded]
    rfl
  | appendByte v =>
    show (k.opsU .unbounded dbg .vec).appendByteU .unbounded b v = _
    rw [Sx.opsU_unbounded]
    show (_ >>= fun n => (k.ops dbg .vec).spliceU .unbounded b _ _ _) = _
    simp only [SxOps.spliceU_unbounded]
    rfl
  | setPayloadByte i v => exact k.setByteU_unbounded ..

theorem SxCall.execAllU_unbounded {k : Sx} (cs : List (SxCall k)) (dbg : Bool) (b : Buf .ump) :
    SxCall.execAllU .unbounded dbg cs b = SxCall.execAll dbg cs b := by
  induction cs generalizing b with
  | nil => rfl
  | cons c cs ih =>
    show (c.execU .unbounded dbg b >>= fun b => SxCall.execAllU .unbounded dbg cs b) = _
    rw [c.execU_unbounded]
    simp only [ih]
    rfl

theorem SxTryCall.execU_unbounded {k : Sx} (c : SxTryCall k) (dbg : Bool) (b : Buf .ump) :
    c.execU .unbounded dbg b = c.exec dbg b := by
  cases c with
  | setGroup g => rfl
  | setPayload d => exact (SxOps.trySetPayloadU_unbounded ..).trans (by rw [Sx.opsU_unbounded]; rfl)
  | splicePayload d rb re =>
    exact (SxOps.trySpliceU_unbounded ..).trans (by rw [Sx.opsU_unbounded]; rfl)
  | insertPayload d i =>
    exact (SxOps.trySpliceU_unbounded ..).trans (by rw [Sx.opsU_unbounded]; rfl)
  | appendPayload d =>
    show (k.opsU .unbounded dbg .fixed).tryAppendU .unbounded b d = _
    rw [Sx.opsU_unbounded]
    show (_ >>= fun n => (k.ops dbg .fixed).trySpliceU .unbounded b d _ _) = _
    simp only [SxOps.trySpliceU_unbounded]
    rfl
  | appendByte v =>
    show (k.opsU .unbounded dbg .fixed).tryAppendByteU .unbounded b v = _
    rw [Sx.opsU_unbounded]
    show (_ >>= fun n => (k.ops dbg .fixed).trySpliceU .unbounded b _ _ _) = _
    simp only [SxOps.trySpliceU_unbounded]
    rfl
  | setPayloadByte i v =>
    show (k.setByteU .unbounded b v i).bind _ = _
    rw [k.setByteU_unbounded]
    rfl

theorem SxTryCall.execAllU_unbounded {k : Sx} (cs : List (SxTryCall k)) (dbg : Bool)
    (b : Buf .ump) : SxTryCall.execAllU .unbounded dbg cs b = SxTryCall.execAll dbg cs b := by
  induction cs generalizing b with
  | nil => rfl
  | cons c cs ih =>
    unfold SxTryCall.execAllU SxTryCall.execAll
    rw [c.execU_unbounded]
    simp only [ih]

theorem SxCall.execBytesU_unbounded (c : SxCall .s7) (b : Buf .bytes) :
    c.execBytesU .unbounded b = c.execBytes b := by
  have e : Sxb.opsU .unbounded false = Sxb.ops .vec := Sxb.opsU_unbounded false
  cases c with
  | setGroup g => rfl
  | setPayload d => exact (SxOps.setPayloadU_unbounded ..).trans (by rw [e]; rfl)
  | splicePayload d rb re => exact (SxOps.spliceU_unbounded ..).trans (by rw [e]; rfl)
  | insertPayload d i => exact (SxOps.spliceU_unbounded ..).trans (by rw [e]; rfl)
  | appendPayload d =>
    show (Sxb.opsU .unbounded false).appendU .unbounded b d = _
    rw [e]
    show (_ >>= fun n => (Sxb.ops .vec).spliceU .unbounded b d _ _) = _
    simp only [SxOps.spliceU_unbounded]
    rfl
  | appendByte v =>
    show (Sxb.opsU .unbounded false).appendByteU .unbounded b v = _
    rw [e]
    show (_ >>= fun n => (Sxb.ops .vec).spliceU .unbounded b _ _ _) = _
    simp only [SxOps.spliceU_unbounded]
    rfl
  | setPayloadByte i v => rfl

theorem SxCall.execAllBytesU_unbounded (cs : List (SxCall .s7)) (b : Buf .bytes) :
    SxCall.execAllBytesU .unbounded cs b = SxCall.execAllBytes cs b := by
  induction cs generalizing b with
  | nil => rfl
  | cons c cs ih =>
    show (c.execBytesU .unbounded b >>= fun b => SxCall.execAllBytesU .unbounded cs b) = _
    rw [c.execBytesU_unbounded]
    simp only [ih]
    rfl

theorem ItCall.execAllU_unbounded (k : Sx) (b : Buf .ump) (cs : List ItCall) (it : Sx.It) :
    ItCall.execAllU .unbounded k b cs it = ItCall.execAll k b cs it := by
  induction cs generalizing it with
  | nil => rfl
  | cons c cs ih =>
    unfold ItCall.execAllU ItCall.execAll
    have : c.execU .unbounded k b it = c.exec k b it := by
      cases c
      · exact k.nextU_unbounded ..
      · exact k.nthU_unbounded ..
    rw [this]
    simp only [ih]

theorem ItCall.execBytesU_unbounded (cs : List ItCall) (it : Sxb.It) :
    ItCall.execBytesU .unbounded cs it = ItCall.execBytes cs it := by
  induction cs generalizing it with
  | nil => rfl
  | cons c cs ih =>
    unfold ItCall.execBytesU ItCall.execBytes
    cases c with
    | next =>
      show (Sxb.nextU .unbounded it >>= _) = _
      rw [Sxb.nextU_unbounded]
      simp only [ih]
    | nth n =>
      show (Sxb.nthU .unbounded n it >>= _) = _
      rw [Sxb.nthU_unbounded]
      simp only [ih]

theorem ItCall.packetLenU_unbounded (dbg withLen : Bool) (k : Sx) (p : Buf .ump) (i : Nat) :
    ItCall.packetLenU .unbounded dbg withLen k p i = ItCall.packetLen dbg withLen k p i := by
  unfold ItCall.packetLenU ItCall.packetLen
  rw [Packet.lenU_unbounded]

theorem ItCall.packetExecAllU_unbounded (dbg withLen : Bool) (k : Sx) (p : Buf .ump)
    (cs : List ItCall) (i : Nat) :
    ItCall.packetExecAllU .unbounded dbg withLen k p cs i =
      ItCall.packetExecAll dbg withLen k p cs i := by
  induction cs generalizing i with
  | nil => rfl
  | cons c cs ih =>
    unfold ItCall.packetExecAllU ItCall.packetExecAll
    cases c with
    | next =>
      show (Packet.nextU .unbounded dbg k p i >>= _) = _
      rw [Packet.nextU_unbounded]
      simp only [ih, ItCall.packetLenU_unbounded]
    | nth n =>
      show (Packet.nthU .unbounded dbg k p n i >>= _) = _
      rw [Packet.nthU_unbounded]
      simp only [ih, ItCall.packetLenU_unbounded]

/-! ### Small operands -/

/-- Both directions. -/
theorem Res.eq_of_under {α : Type} {a b : Res α} {Q : α → Prop} (h : a.Under b Q)
    (h' : b.Agree a) : b = a := by
  by_cases hp : a = .panic
  · by_cases hq : b = .panic
    · rw [hp, hq]
    · exact (h'.eq hq).symm
  · exact h.eq hp

theorem Src.Small.estimate {β : Type} {M : Nat} {d : Src β} (h : d.Small M) : d.estimate ≤ M := by
  unfold Src.estimate
  cases hu : d.upper with
  | none => exact h.lower
  | some u => exact h.upper u hu

theorem Bound.Within.mono {n m : Nat} {b : Bound} (h : b.Within n) (hm : n ≤ m) : b.Within m := by
  cases b with
  | included i => exact Nat.lt_of_lt_of_le h hm
  | excluded i => exact Nat.lt_of_lt_of_le h hm
  | unbounded => trivial

theorem SxCall.exec_fits {k : Sx} {w M : Nat} (hM : 4 ≤ M) (hw : 1024 * M ≤ 2 ^ w) (c : SxCall k)
    (dbg : Bool) (b : Buf .ump) (hb : b.length ≤ M) (hc : c.Small M) :
    (c.execU .unbounded dbg b).Under (c.execU (.checked w) dbg b) fun _ => True := by
  have h := k.vec_fits (w := w) dbg hM hw
  cases c with
  | setGroup g => exact .same _
  | setPayload d => exact (h.setPayload b d hb hc.items hc.estimate).weaken fun _ _ => trivial
  | splicePayload d rb re =>
    exact (h.splice b d rb re hb hc.1.items hc.1.estimate (hc.2.1.mono (by omega))
      (hc.2.2.mono (by omega))).weaken fun _ _ => trivial
  | insertPayload d i =>
    have := hc.2
    exact (h.insert b d i hb hc.1.items hc.1.estimate (by omega)).weaken fun _ _ => trivial
  | appendPayload d => exact (h.append b d hb hc.items hc.estimate).weaken fun _ _ => trivial
  | appendByte v => exact (h.appendByte b v hb).weaken fun _ _ => trivial
  | setPayloadByte i v => exact (k.setByte_fits b v i (by omega)).weaken fun _ _ => trivial

theorem SxCall.execAll_fits {k : Sx} {w M : Nat} (hM : 4 ≤ M) (hw : 1024 * M ≤ 2 ^ w)
    (cs : List (SxCall k)) (dbg : Bool) (b : Buf .ump) (h : SxCall.AllSmall M dbg cs b) :
    (SxCall.execAllU .unbounded dbg cs b).Under (SxCall.execAllU (.checked w) dbg cs b)
      fun _ => True := by
  induction cs generalizing b with
  | nil => exact .same _
  | cons c cs ih =>
    refine .bind' (c.exec_fits hM hw dbg b h.1 h.2.1) fun b' hb _ => ?_
    rw [c.execU_unbounded] at hb
    exact ih b' (h.2.2 b' hb)

theorem SxTryCall.exec_fits {k : Sx} {w M : Nat} (hM : 4 ≤ M) (hw : 1024 * M ≤ 2 ^ w)
    (c : SxTryCall k) (dbg : Bool) (b : Buf .ump) (hb : b.length ≤ M) (hc : c.Small M) :
    (c.execU .unbounded dbg b).Under (c.execU (.checked w) dbg b)
      fun r => r.1.length = b.length := by
  have h := k.fixed_fits (w := w) (L := b.length) dbg hM hb hw
  cases c with
  | setGroup g => exact .ok (k.setGroup_length b g)
  | setPayload d => exact h.trySetPayload b d rfl hc.items hc.estimate
  | splicePayload d rb re =>
    exact h.trySplice b d rb re rfl hc.1.items hc.1.estimate (hc.2.1.mono (by omega))
      (hc.2.2.mono (by omega))
  | insertPayload d i =>
    have := hc.2
    exact h.tryInsert b d i rfl hc.1.items hc.1.estimate (by omega)
  | appendPayload d => exact h.tryAppend b d rfl hc.items hc.estimate
  | appendByte v => exact h.tryAppendByte b v rfl
  | setPayloadByte i v => exact .bind (k.setByte_fits b v i (by omega)) fun b' hb => .ok hb

theorem SxTryCall.execAll_fits {k : Sx} {w M : Nat} (hM : 4 ≤ M) (hw : 1024 * M ≤ 2 ^ w)
    (cs : List (SxTryCall k)) (dbg : Bool) (b : Buf .ump) (hb : b.length ≤ M)
    (h : ∀ c ∈ cs, SxTryCall.Small M c) :
    (SxTryCall.execAllU .unbounded dbg cs b).Under (SxTryCall.execAllU (.checked w) dbg cs b)
      fun _ => True := by
  induction cs generalizing b with
  | nil => exact .same _
  | cons c cs ih =>
    exact .bind (c.exec_fits hM hw dbg b hb (h c (by simp))) fun r hr =>
      .bind (ih r.1 (by omega) fun c hc => h c (by simp [hc])) fun _ _ => .same _

theorem SxCall.execBytes_fits {w M : Nat} (hM : 4 ≤ M) (hw : 1024 * M ≤ 2 ^ w) (c : SxCall .s7)
    (b : Buf .bytes) (hb : b.length ≤ M) (hc : c.Small M) :
    (c.execBytesU .unbounded b).Under (c.execBytesU (.checked w) b) fun _ => True := by
  have h := Sxb.vec_fits (w := w) hM hw
  cases c with
  | setGroup g => exact .same _
  | setPayload d => exact (h.setPayload b d hb hc.items hc.estimate).weaken fun _ _ => trivial
  | splicePayload d rb re =>
    exact (h.splice b d rb re hb hc.1.items hc.1.estimate (hc.2.1.mono (by omega))
      (hc.2.2.mono (by omega))).weaken fun _ _ => trivial
  | insertPayload d i =>
    have := hc.2
    exact (h.insert b d i hb hc.1.items hc.1.estimate (by omega)).weaken fun _ _ => trivial
  | appendPayload d => exact (h.append b d hb hc.items hc.estimate).weaken fun _ _ => trivial
  | appendByte v => exact (h.appendByte b v hb).weaken fun _ _ => trivial
  | setPayloadByte i v => exact (Sxb.setByte_fits b v i (by omega)).weaken fun _ _ => trivial

theorem SxCall.execAllBytes_fits {w M : Nat} (hM : 4 ≤ M) (hw : 1024 * M ≤ 2 ^ w)
    (cs : List (SxCall .s7)) (b : Buf .bytes) (h : SxCall.AllSmallBytes M cs b) :
    (SxCall.execAllBytesU .unbounded cs b).Under (SxCall.execAllBytesU (.checked w) cs b)
      fun _ => True := by
  induction cs generalizing b with
  | nil => exact .same _
  | cons c cs ih =>
    refine .bind' (c.execBytes_fits hM hw b h.1 h.2.1) fun b' hb _ => ?_
    rw [c.execBytesU_unbounded] at hb
    exact ih b' (h.2.2 b' hb)

theorem ItCall.execAll_fits {w : Nat} (k : Sx) (b : Buf .ump) (h : 4 * b.length + 16 < 2 ^ w)
    (cs : List ItCall) (it : Sx.It) :
    (ItCall.execAllU .unbounded k b cs it).Under (ItCall.execAllU (.checked w) k b cs it)
      fun _ => True := by
  induction cs generalizing it with
  | nil => exact .same _
  | cons c cs ih =>
    refine .bind (P := fun _ => True) ?_ fun x _ => .bind (ih _) fun _ _ => .same _
    cases c
    · exact k.next_fits (by omega) it
    · exact k.nth_fits h _ it

theorem Sx.collect_fits {w : Nat} (k : Sx) (b : Buf .ump) (h : 4 * b.length + 16 < 2 ^ w)
    (fuel : Nat) (it : It) :
    (k.collectU .unbounded b fuel it).Under (k.collectU (.checked w) b fuel it)
      fun _ => True := by
  induction fuel generalizing it with
  | zero => exact .panic _ _
  | succ fuel ih =>
    refine .bind (k.next_fits (by omega) it) fun r _ => ?_
    obtain ⟨_ | v, it⟩ := r
    · exact .same _
    · exact .bind (ih it) fun _ _ => .same _

theorem Sx.payloadList_fits {w : Nat} (k : Sx) (b : Buf .ump) (h : 8 * b.length + 16 < 2 ^ w) :
    (k.payloadListU .unbounded b).Under (k.payloadListU (.checked w) b) fun _ => True :=
  .bind (k.payload_fits (by omega)) fun it _ => k.collect_fits b (by omega) _ it

theorem ItCall.execBytes_fits {w : Nat} (cs : List ItCall) (it : Sxb.It)
    (h : it.idx + ItCall.steps cs < 2 ^ w) :
    (ItCall.execBytesU .unbounded cs it).Under (ItCall.execBytesU (.checked w) cs it)
      fun _ => True := by
  induction cs generalizing it with
  | nil => exact .same _
  | cons c cs ih =>
    cases c with
    | next =>
      unfold ItCall.steps at h
      exact .bind (Sxb.next_fits it (by omega)) fun r hr => .bind (ih _ (by omega)) fun _ _ =>
        .same _
    | nth n =>
      unfold ItCall.steps at h
      exact .bind (Sxb.nth_fits n it (by omega)) fun r hr => .bind (ih _ (by omega)) fun _ _ =>
        .same _

namespace Packet

variable {w : Nat} (dbg : Bool) (k : Sx) (p : Buf .ump)

theorem payloadSize_fits : (payloadSizeU .unbounded dbg k p).Under
    (payloadSizeU (.checked w) dbg k p) fun n => n ≤ 15 :=
  .bind (.same _) fun x _ => .bind (k.packetSize_fits x) fun n hn =>
    .ite (fun _ => .panic _ _) fun _ => .ok hn

theorem payloadValue_fits (i : Nat) (h : i + 3 < 2 ^ w) :
    (payloadValueU .unbounded k p i).Under (payloadValueU (.checked w) k p i) fun _ => True :=
  have ho : k.off ≤ 3 := by cases k <;> decide
  .bind (Arith.fits_add (by omega)) fun _ _ => .same _

theorem next_fits (i : Nat) (h : i + 3 < 2 ^ w) :
    (nextU .unbounded dbg k p i).Under (nextU (.checked w) dbg k p i) fun r => r.2 ≤ i + 1 :=
  .bind (payloadSize_fits dbg k p) fun n _ => .ite (fun _ => .ok (Nat.le_succ i)) fun _ =>
    .bind (payloadValue_fits k p i h) fun v _ => .bind (Arith.fits_add (by omega)) fun j hj =>
    .ok (by show j ≤ _; omega)

theorem nth_fits (n i : Nat) (h : i + n + 3 < 2 ^ w) :
    (nthU .unbounded dbg k p n i).Under (nthU (.checked w) dbg k p n i)
      fun r => r.2 ≤ i + n + 1 := by
  refine .bind (Arith.fits_add (by omega)) fun j hj => ?_
  subst hj
  refine .bind (payloadSize_fits dbg k p) fun sz _ => .ite (fun _ => .ok ?_) fun _ =>
    .bind (payloadValue_fits k p _ (by omega)) fun v _ => ?_
  · cases k <;> simp only <;> omega
  · cases k with
    | s7 =>
      exact .bind (Arith.fits_add (by omega)) fun m hm => .bind (Arith.fits_add (by omega))
        fun j hj => .ok (by show j ≤ _; omega)
    | s8 => exact .ok (by show min (i + n) 13 ≤ _; omega)

theorem len_fits (withLen : Bool) (i : Nat) :
    (ItCall.packetLenU .unbounded dbg withLen k p i).Under
      (ItCall.packetLenU (.checked w) dbg withLen k p i) fun _ => True :=
  .ite (fun _ => .bind (P := fun _ => True) (.bind (payloadSize_fits dbg k p) fun n _ =>
    (Arith.fits_sub ..).weaken fun _ _ => trivial) fun _ _ => .same _) fun _ => .same _

end Packet

theorem ItCall.packetExecAll_fits {w : Nat} (dbg withLen : Bool) (k : Sx) (p : Buf .ump)
    (cs : List ItCall) (i : Nat) (h : i + ItCall.steps cs + 3 < 2 ^ w) :
    (ItCall.packetExecAllU .unbounded dbg withLen k p cs i).Under
      (ItCall.packetExecAllU (.checked w) dbg withLen k p cs i) fun _ => True := by
  induction cs generalizing i with
  | nil => exact .same _
  | cons c cs ih =>
    cases c with
    | next =>
      unfold ItCall.steps at h
      exact .bind (Packet.next_fits dbg k p i (by omega)) fun r hr =>
        .bind (Packet.len_fits ..) fun _ _ => .bind (ih _ (by omega)) fun _ _ => .same _
    | nth n =>
      unfold ItCall.steps at h
      exact .bind (Packet.nth_fits dbg k p n i (by omega)) fun r hr =>
        .bind (Packet.len_fits ..) fun _ _ => .bind (ih _ (by omega)) fun _ _ => .same _

end Midi2
