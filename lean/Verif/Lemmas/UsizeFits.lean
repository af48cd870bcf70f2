import Verif.Lemmas.UsizeAgree
import Verif.Lemmas.Chunks
import Verif.Lemmas.Construct

/-! # Small operands: checked arithmetic does not overflow -/

namespace Midi2

/-- The first computation panics or both give the same outcome, which satisfies `Q`. -/
structure Res.Under {α : Type} (a b : Res α) (Q : α → Prop) : Prop where
  eq : a ≠ .panic → b = a
  post : ∀ x, a = .ok x → Q x

namespace Res.Under

variable {α β : Type}

theorem panic (b : Res α) (Q : α → Prop) : Res.Under .panic b Q :=
  ⟨fun h => absurd rfl h, fun _ h => by cases h⟩

theorem ok {x : α} {Q : α → Prop} (h : Q x) : Res.Under (.ok x) (.ok x) Q :=
  ⟨fun _ => rfl, fun _ e => by cases e; exact h⟩

theorem rfl' (a : Res α) {Q : α → Prop} (h : ∀ x, a = .ok x → Q x) : a.Under a Q :=
  ⟨fun _ => rfl, h⟩

theorem same (a : Res α) : a.Under a fun _ => True := ⟨fun _ => rfl, fun _ _ => trivial⟩

theorem bind {a b : Res α} {f g : α → Res β} {P : α → Prop} {Q : β → Prop} (h : a.Under b P)
    (hf : ∀ x, P x → (f x).Under (g x) Q) : (a >>= f).Under (b >>= g) Q := by
  cases a with
  | panic => exact panic _ _
  | err e =>
    refine ⟨fun _ => ?_, fun x hx => by cases hx⟩
    rw [h.eq (by intro h; cases h)]; rfl
  | ok x =>
    rw [h.eq (by intro h; cases h)]; exact hf x (h.post x rfl)

/-- The outcome itself may be used for the rest. -/
theorem bind' {a b : Res α} {f g : α → Res β} {P : α → Prop} {Q : β → Prop} (h : a.Under b P)
    (hf : ∀ x, a = .ok x → P x → (f x).Under (g x) Q) : (a >>= f).Under (b >>= g) Q := by
  cases a with
  | panic => exact panic _ _
  | err e =>
    refine ⟨fun _ => ?_, fun x hx => by cases hx⟩
    rw [h.eq (by intro h; cases h)]; rfl
  | ok x =>
    rw [h.eq (by intro h; cases h)]; exact hf x rfl (h.post x rfl)

theorem ite {c : Prop} [Decidable c] {a a' b b' : Res α} {Q : α → Prop}
    (h1 : c → a.Under b Q) (h2 : ¬ c → a'.Under b' Q) :
    (if c then a else a').Under (if c then b else b') Q := by
  split
  · exact h1 ‹_›
  · exact h2 ‹_›

theorem weaken {a b : Res α} {P Q : α → Prop} (h : a.Under b P) (hq : ∀ x, P x → Q x) :
    a.Under b Q := ⟨h.eq, fun x hx => hq x (h.post x hx)⟩

theorem agree {a b : Res α} {Q : α → Prop} (h : a.Under b Q) : a.Agree b := ⟨h.eq⟩

end Res.Under

namespace Arith

variable {w : Nat}

theorem fits_add {a b : Nat} (h : a + b < 2 ^ w) :
    (unbounded.add a b).Under ((checked w).add a b) fun x => x = a + b := by
  have : (checked w).add a b = .ok (a + b) := if_pos h
  rw [this]; exact .ok rfl

theorem fits_mul {a b : Nat} (h : a * b < 2 ^ w) :
    (unbounded.mul a b).Under ((checked w).mul a b) fun x => x = a * b := by
  have : (checked w).mul a b = .ok (a * b) := if_pos h
  rw [this]; exact .ok rfl

theorem fits_sub (a b : Nat) :
    (unbounded.sub a b).Under ((checked w).sub a b) fun x => b ≤ a ∧ x = a - b := by
  show (usub a b).Under (usub a b) _
  unfold usub
  split
  · exact .ok ⟨‹_›, rfl⟩
  · exact .panic _ _

end Arith

theorem at'_post {α : Type} (b : List α) (i : Nat) :
    (at' b i).Under (at' b i) fun _ => i < b.length :=
  .rfl' _ fun x hx => by
    by_cases h : i < b.length
    · exact h
    · rw [at', List.getElem?_eq_none (by omega)] at hx; cases hx

theorem modifyAt_post {α : Type} (b : List α) (i : Nat) (f : α → α) :
    (modifyAt b i f).Under (modifyAt b i f) fun b' => i < b.length ∧ b'.length = b.length :=
  .rfl' _ fun x hx => ⟨(modifyAt_inv hx).1, modifyAt_len hx⟩

theorem Sx.stride_pos (k : Sx) : 0 < k.stride := by cases k <;> decide

theorem nibble_le (w : BitVec 32) (i : Nat) : (U32.nibble w i).toNat ≤ 15 := by
  have := (U32.nibble w i).isLt; omega

namespace Sx

variable (k : Sx) {w : Nat}

theorem packetSize_fits (x : BitVec 32) :
    (k.packetSizeU .unbounded x).Under (k.packetSizeU (.checked w) x) fun n => n ≤ 15 := by
  have := nibble_le x 3
  cases k
  · exact .ok this
  · exact (Arith.fits_sub _ _).weaken fun n h => by omega

theorem packetSize8_fits (x : BitVec 32) :
    (k.packetSize8U .unbounded x).Under (k.packetSize8U (.checked w) x) fun n => n ≤ 15 := by
  have := nibble_le x 3
  cases k
  · exact .ok this
  · exact (Arith.fits_sub (w := w) _ _).weaken fun n h => by omega

theorem findIdx_bound {α : Type} {l : List α} {p : α → Bool} {i : Nat}
    (h : l.findIdx? p = some i) : i < l.length := by
  obtain ⟨h, _⟩ := List.findIdx?_eq_some_iff_getElem.mp h
  exact h

theorem chunk_mul (b : Buf .ump) : k.stride * (chunksExact k.stride b).length ≤ b.length := by
  rw [chunksExact_length k.stride_pos]
  exact Nat.mul_div_le _ _

theorem data_fits {b : Buf .ump} (h : b.length < 2 ^ w) :
    (k.dataU .unbounded b).Under (k.dataU (.checked w) b) fun d => d.length ≤ b.length := by
  unfold dataU sizeU
  have hc := k.chunk_mul b
  have post : ∀ n x, sliceTo b n = .ok x → x.length ≤ b.length := by
    intro n x hx
    unfold sliceTo at hx
    split at hx
    · cases hx; exact List.length_take_le' ..
    · cases hx
  cases hf : (chunksExact k.stride b).findIdx? (fun p => isLast (head0 p)) with
  | none => exact .panic _ _
  | some i =>
    have hi := findIdx_bound hf
    have hm : i * k.stride + k.stride ≤ b.length := by
      have := Nat.mul_le_mul_left k.stride (Nat.succ_le_of_lt hi)
      rw [Nat.mul_succ, Nat.mul_comm] at this
      omega
    refine .bind (P := fun _ => True) (.bind (Arith.fits_mul (by omega)) fun n hn => ?_)
      fun n _ => .rfl' _ (post n)
    subst hn
    exact (Arith.fits_add (by omega)).weaken fun _ _ => trivial

theorem sumSizes_fits (l : List (Buf .ump)) (acc : Nat) (h : acc + 15 * l.length < 2 ^ w) :
    (k.sumSizesU .unbounded acc l).Under (k.sumSizesU (.checked w) acc l)
      fun n => n ≤ acc + 15 * l.length := by
  induction l generalizing acc with
  | nil => exact .ok (by simp)
  | cons p ps ih =>
    simp only [List.length_cons] at h
    refine .bind (k.packetSize_fits _) fun n hn => .bind (Arith.fits_add (by omega)) fun m hm => ?_
    subst hm
    refine (ih (acc + n) (by omega)).weaken fun x hx => ?_
    simp only [List.length_cons]
    omega

theorem payload_fits {b : Buf .ump} (h : 8 * b.length < 2 ^ w) :
    (k.payloadU .unbounded b).Under (k.payloadU (.checked w) b)
      fun it => it.cache ≤ 8 * b.length := by
  refine .bind (k.data_fits (by omega)) fun d hd => ?_
  have hc := k.chunk_mul d
  have : 15 * (chunksExact k.stride d).length ≤ 8 * b.length := by
    have : 2 * (chunksExact k.stride d).length ≤ k.stride * (chunksExact k.stride d).length :=
      Nat.mul_le_mul_right _ (by cases k <;> decide)
    omega
  refine .bind (k.sumSizes_fits _ 0 (by omega)) fun n hn => ?_
  exact .ok (by show n ≤ _; omega)

theorem payloadSize_fits {b : Buf .ump} (h : 8 * b.length < 2 ^ w) :
    (k.payloadSizeU .unbounded b).Under (k.payloadSizeU (.checked w) b)
      fun n => n ≤ 8 * b.length :=
  .bind (k.payload_fits h) fun _ hi => .ok hi

theorem curSize_fits {b : Buf .ump} (h : b.length < 2 ^ w) (p : Nat) :
    (k.curSizeU .unbounded b p).Under (k.curSizeU (.checked w) b p)
      fun n => n ≤ 15 ∧ p * k.stride + k.stride ≤ b.length := by
  by_cases hp : p * k.stride + k.stride ≤ b.length
  · refine .bind (Arith.fits_mul (by omega)) fun i hi => ?_
    subst hi
    refine .bind (Arith.fits_add (by omega)) fun j hj => ?_
    subst hj
    exact .ite (fun _ => .bind (.same _) fun x _ => (k.packetSize_fits x).weaken
      fun n hn => ⟨hn, hp⟩) (fun hn => absurd ⟨Nat.le_add_right .., hp⟩ hn)
  · have : k.curSizeU .unbounded b p = .panic := by
      rw [curSizeU_unbounded, curSize, if_neg hp]
    rw [this]
    exact .panic _ _

theorem packet_le {b : Buf .ump} {p : Nat} (h : p * k.stride + k.stride ≤ b.length) :
    p + 1 ≤ b.length := by
  have : p ≤ p * k.stride := Nat.le_mul_of_pos_right _ k.stride_pos
  have := k.stride_pos
  omega

theorem skipEmpty_fits {b : Buf .ump} (h : b.length < 2 ^ w) (fuel : Nat) (it : It) :
    (k.skipEmptyU .unbounded b fuel it).Under (k.skipEmptyU (.checked w) b fuel it)
      fun _ => True := by
  induction fuel generalizing it with
  | zero => exact .panic _ _
  | succ fuel ih =>
    refine .ite (fun _ => .same _) fun _ => .bind (k.curSize_fits h _) fun sz hs =>
      .ite (fun _ => ?_) fun _ => .same _
    have := k.packet_le hs.2
    exact .bind (Arith.fits_add (by omega)) fun p _ => ih _

theorem value_fits {b : Buf .ump} (h : 4 * b.length + 4 < 2 ^ w) (it : It) :
    (k.valueU .unbounded b it).Under (k.valueU (.checked w) b it)
      fun _ => it.idx < 4 * b.length := by
  by_cases hv : it.packet * k.stride + (it.idx + k.off) / 4 < b.length
  · have ho : k.off ≤ 3 := by cases k <;> decide
    refine .bind (Arith.fits_mul (by omega)) fun p hp => ?_
    subst hp
    refine .bind (Arith.fits_add (by omega)) fun o ho => ?_
    subst ho
    refine .bind (Arith.fits_add (by omega)) fun i hi => ?_
    subst hi
    exact .bind (.same _) fun x _ => .ok (by omega)
  · have : k.valueU .unbounded b it = .panic := by
      unfold valueU
      simp only [Arith.unbounded_add, Arith.unbounded_mul, Res.ok_bind]
      rw [at', List.getElem?_eq_none (by omega)]
      rfl
    rw [this]
    exact .panic _ _

theorem advance_fits {b : Buf .ump} (h : 4 * b.length + 4 < 2 ^ w) (it : It)
    (hi : it.idx < 4 * b.length) :
    (k.advanceU .unbounded b it).Under (k.advanceU (.checked w) b it) fun _ => True := by
  unfold advanceU
  refine .bind (Arith.fits_add (by omega)) fun i hi => .bind (k.curSize_fits (by omega) _)
    fun sz hs => ?_
  have := k.packet_le hs.2
  cases k with
  | s7 =>
    exact .ite (fun _ => .bind (Arith.fits_add (by omega)) fun p _ => skipEmpty_fits _ (by omega) ..)
      fun _ => skipEmpty_fits _ (by omega) ..
  | s8 => exact .ite (fun _ => .bind (Arith.fits_add (by omega)) fun p _ => .same _) fun _ => .same _

theorem next_fits {b : Buf .ump} (h : 4 * b.length + 4 < 2 ^ w) (it : It) :
    (k.nextU .unbounded b it).Under (k.nextU (.checked w) b it) fun _ => True := by
  refine .ite (fun _ => .same _) fun _ => .bind (k.skipEmpty_fits (by omega) ..) fun it _ =>
    .bind (k.value_fits h it) fun v hv => .bind (k.advance_fits h it hv) fun it _ => .same _

theorem nthLoop_fits {b : Buf .ump} (l : List (Buf .ump)) (rel n : Nat) (it : It)
    (hp : it.packet ≤ b.length) (hl : rel + l.length ≤ b.length + 1) (h : 2 * b.length + 1 < 2 ^ w) :
    (k.nthLoopU .unbounded l rel n it).Under (k.nthLoopU (.checked w) l rel n it)
      fun _ => True := by
  induction l generalizing rel n it with
  | nil => exact .same _
  | cons p ps ih =>
    simp only [List.length_cons] at hl
    exact .bind (k.packetSize_fits _) fun sz _ => .ite
      (fun _ => .bind (Arith.fits_add (by omega)) fun q _ => .bind (Arith.fits_sub ..) fun c _ =>
        .same _)
      (fun _ => .bind (Arith.fits_sub ..) fun c _ => ih _ _ _ hp (by omega))

theorem nth_fits {b : Buf .ump} (h : 4 * b.length + 16 < 2 ^ w) (n : Nat) (it : It) :
    (k.nthU .unbounded b n it).Under (k.nthU (.checked w) b n it) fun _ => True := by
  refine .bind (P := fun _ => True) ?_ fun x _ => .same _
  by_cases hp : it.packet * k.stride ≤ b.length
  · refine .bind (Arith.fits_mul (by omega)) fun i hi => ?_
    subst hi
    refine .ite (fun _ => .panic _ _) fun _ => ?_
    have hc := k.chunk_mul (b.drop (it.packet * k.stride))
    have hle : it.packet ≤ it.packet * k.stride := Nat.le_mul_of_pos_right _ k.stride_pos
    cases he : chunksExact k.stride (b.drop (it.packet * k.stride)) with
    | nil => exact .same _
    | cons p ps =>
      rw [he] at hc
      simp only [List.length_cons, List.length_drop] at hc
      have : ps.length + 1 ≤ k.stride * (ps.length + 1) := Nat.le_mul_of_pos_left _ k.stride_pos
      refine .bind (k.packetSize_fits _) fun sz hs => .bind (Arith.fits_sub ..) fun r hr => .ite
        (fun hn => .bind (Arith.fits_add (by omega)) fun i _ => .bind (Arith.fits_sub ..)
          fun c _ => k.next_fits (by omega) _)
        (fun _ => .bind (Arith.fits_sub ..) fun c _ =>
          .bind (k.nthLoop_fits (b := b) _ _ _ _ (by show it.packet ≤ _; omega) (by omega) (by omega))
            fun x _ => ?_)
      obtain ⟨it, _ | _⟩ := x
      · exact .same _
      · exact k.next_fits (by omega) it
  · have : k.doNthU .unbounded b n it = .panic := by
      unfold doNthU
      simp only [Arith.unbounded_mul, Res.ok_bind]
      rw [if_pos (by omega)]
    rw [this]
    exact .panic _ _

end Sx

end Midi2
