import Verif.Lemmas.UsizeSplice
import Verif.Lemmas.SysexLaws

/-! # Small operands: the operations of sysex messages -/

namespace Midi2

namespace Sx

variable (k : Sx) {w : Nat}

theorem cap_pos' : 0 < k.cap := by cases k <;> decide

theorem writeDatum_fits (b : Buf .ump) (v : k.Byte) (i : Nat) (h : i + 8 < 2 ^ w) :
    (k.writeDatumU .unbounded b v i).Under (k.writeDatumU (.checked w) b v i)
      fun b' => b'.length = b.length := by
  have hc : k.stride * (i / k.cap) ≤ i := by cases k <;> simp only [stride, cap] <;> omega
  have hm : i % k.cap < k.cap := Nat.mod_lt _ k.cap_pos'
  have ho : (i % k.cap + k.off) / 4 < 4 := by
    revert hm
    cases k <;> simp only [cap, off] <;> omega
  exact .bind (Arith.fits_mul (by omega)) fun p hp => .bind (Arith.fits_add (by omega)) fun j hj =>
    (modifyAt_post _ _ _).weaken fun b' h => h.2

theorem addr_fits (i : Nat) (h : 2 * i + 3 < 2 ^ w) :
    (k.addrU .unbounded i).Under (k.addrU (.checked w) i) fun _ => True := by
  have hc : k.off * (1 + i / k.cap) ≤ i + 3 := by cases k <;> simp only [off, cap] <;> omega
  have : 1 + i / k.cap ≤ k.off * (1 + i / k.cap) :=
    Nat.le_mul_of_pos_left _ (by cases k <;> decide)
  refine .bind (Arith.fits_add (by omega)) fun q hq => ?_
  subst hq
  exact .bind (Arith.fits_mul (by omega)) fun q hq =>
    (Arith.fits_add (by omega)).weaken fun _ _ => trivial

theorem copyOctet_post (b : Buf .ump) (i j : Nat) :
    (copyOctet b i j).Under (copyOctet b i j) fun b' => b'.length = b.length :=
  .bind (.same _) fun _ _ => (modifyAt_post _ _ _).weaken fun _ h => h.2

theorem moveUp_fits (d tail n : Nat) (b : Buf .ump) (h : 2 * (tail + n + d) + 3 < 2 ^ w) :
    (k.moveUpU .unbounded d tail n b).Under (k.moveUpU (.checked w) d tail n b)
      fun b' => b'.length = b.length := by
  induction n generalizing b with
  | zero => exact .ok rfl
  | succ n ih =>
    exact .bind (k.addr_fits _ (by omega)) fun src _ => .bind (Arith.fits_add (by omega))
      fun j hj => .bind (k.addr_fits _ (by omega)) fun dst _ => .bind (copyOctet_post ..)
      fun b' hb => (ih b' (by omega)).weaken fun x hx => by rw [hx, hb]

theorem moveDown_fits (d i n : Nat) (b : Buf .ump) (h : 2 * (i + n) + 3 < 2 ^ w) :
    (k.moveDownU .unbounded d i n b).Under (k.moveDownU (.checked w) d i n b)
      fun b' => b'.length = b.length := by
  induction n generalizing i b with
  | zero => exact .ok rfl
  | succ n ih =>
    exact .bind (k.addr_fits _ (by omega)) fun src _ => .bind (Arith.fits_sub ..)
      fun j hj => .bind (k.addr_fits _ (by omega)) fun dst _ => .bind (copyOctet_post ..)
      fun b' hb => (ih _ b' (by omega)).weaken fun x hx => by rw [hx, hb]

theorem moveTail_fits (dbg : Bool) (b : Buf .ump) (i j : Nat) (h : 16 * b.length + 3 < 2 ^ w)
    (hi : 2 * i + 3 < 2 ^ w) :
    (k.moveTailU .unbounded dbg b i j).Under (k.moveTailU (.checked w) dbg b i j)
      fun b' => b'.length = b.length := by
  refine .bind (.same _) fun _ _ => .bind (k.payloadSize_fits (by omega)) fun ps hps => .ite
    (fun _ => .bind (Arith.fits_sub ..) fun hi' hh => ?_)
    (fun _ => .ite (fun _ => ?_) fun _ => .ok rfl)
  · by_cases hlt : i < hi'
    · exact k.moveUp_fits _ _ _ _ (by omega)
    · rw [show hi' - i = 0 by omega]
      exact .ok rfl
  · by_cases hlt : i < ps
    · exact k.moveDown_fits _ _ _ _ (by omega)
    · rw [show ps - i = 0 by omega]
      exact .ok rfl

theorem compactPacket_fits (src : Nat) (l : List Nat) (b : Buf .ump) (dp di : Nat)
    (hl : ∀ i ∈ l, i ≤ 15) (hs : src * k.stride ≤ b.length) (hd : dp * k.stride ≤ b.length + 4)
    (hi : di < k.cap) (h : b.length + 32 < 2 ^ w) :
    (k.compactPacketU .unbounded src l b dp di).Under (k.compactPacketU (.checked w) src l b dp di)
      fun r => r.1.length = b.length ∧ r.2.1 * k.stride ≤ b.length + 4 ∧ r.2.2 < k.cap := by
  have ho : k.off ≤ 3 := by cases k <;> decide
  have hcap : k.cap ≤ 13 := by cases k <;> decide
  have hst : k.stride ≤ 4 := by cases k <;> decide
  induction l generalizing b dp di with
  | nil => exact .ok ⟨rfl, hd, hi⟩
  | cons i is ih =>
    have hi15 := hl i (by simp)
    refine .bind (Arith.fits_mul (by omega)) fun s hs' => .bind (Arith.fits_add (by omega))
      fun so hso => .bind (Arith.fits_add (by omega)) fun s2 hs2 => .bind (.same _) fun x _ =>
      .bind (Arith.fits_mul (by omega)) fun t ht => .bind (Arith.fits_add (by omega)) fun to hto =>
      .bind (Arith.fits_add (by omega)) fun t2 ht2 => .bind (modifyAt_post ..) fun b' hb =>
      .bind (Arith.fits_add (by omega)) fun e he => .ite (fun hc => ?_) fun hc => ?_
    · have hdp : dp * k.stride ≤ b.length := by
        have := hb.1
        omega
      have hdp' : dp ≤ dp * k.stride := Nat.le_mul_of_pos_right _ k.stride_pos
      refine .bind (Arith.fits_add (by omega)) fun dp' hdq => ?_
      subst hdq
      rw [← hb.2] at hs h hd ⊢
      refine ih b' (dp + 1) 0 (fun i hi => hl i (by simp [hi])) hs ?_ k.cap_pos' h
      rw [Nat.succ_mul, hb.2]
      omega
    · rw [← hb.2] at hs h hd ⊢
      exact ih b' dp e (fun i hi => hl i (by simp [hi])) hs hd (by omega) h

theorem compactLoop_fits (fuel : Nat) (b : Buf .ump) (src dp di : Nat)
    (hs : src * k.stride ≤ b.length + 4) (hd : dp * k.stride ≤ b.length + 4) (hi : di < k.cap)
    (h : b.length + 32 < 2 ^ w) :
    (k.compactLoopU .unbounded fuel b src dp di).Under (k.compactLoopU (.checked w) fuel b src dp di)
      fun b' => b'.length = b.length := by
  induction fuel generalizing b src dp di with
  | zero => exact .panic _ _
  | succ fuel ih =>
    refine .bind (Arith.fits_mul (by omega)) fun s hs' => ?_
    subst hs'
    refine .bind (at'_post ..) fun x hx => .ite (fun _ => .ok rfl) fun _ =>
      .bind (k.packetSize8_fits x) fun sz hsz =>
      .bind (k.compactPacket_fits src (List.range sz) b dp di
        (fun i hi => by have := List.mem_range.mp hi; omega) (by omega) hd hi h) fun r hr => ?_
    obtain ⟨b', dp', di'⟩ := r
    simp only at hr
    obtain ⟨h1, h2, h3⟩ := hr
    have hsp : src ≤ src * k.stride := Nat.le_mul_of_pos_right _ k.stride_pos
    have hst : k.stride ≤ 4 := by cases k <;> decide
    refine .bind (Arith.fits_add (by omega)) fun src' hsrc => .ite (fun _ => .ok h1) fun _ => ?_
    subst hsrc
    rw [← h1] at h2 hx h hs ⊢
    refine ih b' (src + 1) dp' di' ?_ h2 h3 h
    rw [Nat.succ_mul]
    omega

theorem setByteLoop_fits (v : k.Byte) (fuel : Nat) (b : Buf .ump) (p i : Nat)
    (hp : p * k.stride ≤ b.length + 4) (h : b.length + 32 < 2 ^ w) :
    (k.setByteLoopU .unbounded v fuel b p i).Under (k.setByteLoopU (.checked w) v fuel b p i)
      fun b' => b'.length = b.length := by
  have ho : k.off ≤ 3 := by cases k <;> decide
  induction fuel generalizing p i with
  | zero => exact .panic _ _
  | succ fuel ih =>
    refine .bind (Arith.fits_mul (by omega)) fun s hs' => ?_
    subst hs'
    have hsp : p ≤ p * k.stride := Nat.le_mul_of_pos_right _ k.stride_pos
    have hst : k.stride ≤ 4 := by cases k <;> decide
    refine .bind (at'_post ..) fun x hx => .bind (k.packetSize8_fits x) fun sz hsz => .ite
      (fun hlt => .bind (Arith.fits_add (by omega)) fun o ho => .bind (Arith.fits_add (by omega))
        fun j _ => (modifyAt_post ..).weaken fun _ h => h.2)
      (fun _ => .bind (Arith.fits_add (by omega)) fun q hq => ?_)
    subst hq
    refine ih (p + 1) _ ?_
    rw [Nat.succ_mul]
    omega

theorem setByte_fits (b : Buf .ump) (v : k.Byte) (i : Nat) (h : b.length + 32 < 2 ^ w) :
    (k.setByteU .unbounded b v i).Under (k.setByteU (.checked w) b v i)
      fun b' => b'.length = b.length :=
  k.setByteLoop_fits v _ b 0 i (by omega) h

theorem bufferSize_fits (n : Nat) (h : 4 * n + 4 < 2 ^ w) :
    (k.bufferSizeU .unbounded n).Under (k.bufferSizeU (.checked w) n)
      fun m => m = k.bufferSize n ∧ m ≤ n + 4 := by
  have hb : k.bufferSize n ≤ n + 4 := by
    rw [bufferSize_eq, count]
    split
    · cases k <;> simp only [stride] <;> omega
    · cases k <;> simp only [stride, cap] <;> omega
  have hu : (k.bufferSizeU .unbounded n).Under (k.bufferSizeU (.checked w) n) fun _ => True := by
    unfold bufferSizeU
    refine .ite (fun _ => .ite (fun _ => .same _) fun _ => ?_) fun _ => ?_
    · cases k with
      | s7 => exact .same _
      | s8 => exact .bind (Arith.fits_mul (by omega)) fun m _ => .same _
    · have hc : n / k.cap ≤ n := Nat.div_le_self ..
      refine .bind (Arith.fits_add (by omega)) fun m hm => ?_
      subst hm
      refine (Arith.fits_mul ?_).weaken fun _ _ => trivial
      have := Nat.mul_le_mul_right (n / k.cap + 1) (show k.stride ≤ 4 by cases k <;> decide)
      omega
  refine ⟨hu.eq, fun x hx => ?_⟩
  rw [bufferSizeU_unbounded] at hx
  cases hx
  exact ⟨rfl, hb⟩

theorem sizeNibble_fits (n : Nat) :
    (k.sizeNibbleU .unbounded n).Under (k.sizeNibbleU (.checked w) n) fun _ => True := by
  cases k with
  | s7 => exact .same _
  | s8 =>
    by_cases h : n % 256 + 1 < 2 ^ 8
    · refine .bind (P := fun _ => True) ⟨fun _ => ?_, fun _ _ => trivial⟩ fun _ _ => .same _
      exact if_pos h
    · have : s8.sizeNibbleU .unbounded n = .panic := by
        show u4New (n % 256 + 1) = .panic
        unfold u4New
        rw [if_neg (by omega)]
      rw [this]
      exact .panic _ _

theorem firstHead_fits (n : Nat) (only : Bool) (x : BitVec 32) :
    (k.firstHeadU .unbounded n only x).Under (k.firstHeadU (.checked w) n only x)
      fun _ => True :=
  .ite (fun _ => .bind (k.sizeNibble_fits n) fun _ _ => .same _) fun _ => .same _

theorem zeroTail_post (r : Nat) (p : Buf .ump) :
    (k.zeroTail r p).Under (k.zeroTail r p) fun p' => p'.length = p.length := by
  refine .rfl' _ ?_
  unfold zeroTail
  generalize List.range' r (k.cap - r) = l
  induction l generalizing p with
  | nil => intro x hx; cases hx; rfl
  | cons i is ih =>
    intro x hx
    rw [List.foldlM_cons] at hx
    obtain ⟨q, h1, h2⟩ := bind_inv hx
    rw [ih q x h2, modifyAt_len h1]

theorem restPackets_fits (n : Nat) (g : BitVec 4) (l : List (Buf .ump)) :
    (k.restPacketsU .unbounded n g l).Under (k.restPacketsU (.checked w) n g l)
      fun l' => l'.map List.length = l.map List.length := by
  induction l with
  | nil => exact .ok rfl
  | cons p ps ih =>
    cases ps with
    | nil =>
      refine .bind (modifyAt_post ..) fun p1 h1 => .ite
        (fun _ => .bind (modifyAt_post ..) fun p2 h2 => .ok ?_)
        (fun _ => .bind (k.sizeNibble_fits _) fun s _ => .bind (modifyAt_post ..) fun p2 h2 =>
          .bind (k.zeroTail_post ..) fun p3 h3 => .ok ?_)
      · simp [h1.2, h2.2]
      · simp [h1.2, h2.2, h3]
    | cons q ps =>
      refine .bind (modifyAt_post ..) fun p1 h1 => .bind ih fun l' hl => .ok ?_
      simp [h1.2, hl]

theorem packets_fits (n : Nat) (l : List (Buf .ump)) :
    (k.packetsU .unbounded n l).Under (k.packetsU (.checked w) n l)
      fun l' => l'.map List.length = l.map List.length := by
  cases l with
  | nil => exact .ok rfl
  | cons p ps =>
    refine .bind (.same _) fun x _ => .bind (k.firstHead_fits ..) fun x' _ =>
      .bind (modifyAt_post ..) fun p1 h1 => .bind (k.restPackets_fits ..) fun l' hl => .ok ?_
    simp [h1.2, hl]

theorem tryResize_fits (m : Mem) (b : Buf .ump) (n : Nat) (h : 4 * n + 4 < 2 ^ w)
    (hm : (m.resize b (k.bufferSize n)).2 = false →
      4 * (m.resize b (k.bufferSize n)).1.length < 2 ^ w) :
    (k.tryResizeU .unbounded m b n).Under (k.tryResizeU (.checked w) m b n) fun r =>
      r.1.length = (m.resize b (k.bufferSize n)).1.length ∧
      r.2 = if (m.resize b (k.bufferSize n)).2 then none
        else some ((m.resize b (k.bufferSize n)).1.length / k.stride * k.cap) := by
  refine .bind (k.bufferSize_fits n h) fun sz hsz => ?_
  obtain ⟨rfl, _⟩ := hsz
  simp only
  generalize m.resize b (k.bufferSize n) = g at hm ⊢
  obtain ⟨c, fine⟩ := g
  simp only at hm ⊢
  have hcap : ∀ x, x / k.stride * k.cap ≤ 4 * x := by
    intro x
    cases k <;> simp only [stride, cap] <;> omega
  have main : ∀ (q x : Nat), Res.Under
      (do
        let cs' ← k.packetsU .unbounded x ((chunksExact k.stride c).take q)
        return (cs'.flatten ++ c.drop (k.stride * ((chunksExact k.stride c).take q).length),
          if fine then none else some x))
      (do
        let cs' ← k.packetsU (.checked w) x ((chunksExact k.stride c).take q)
        return (cs'.flatten ++ c.drop (k.stride * ((chunksExact k.stride c).take q).length),
          if fine then none else some x))
      fun r => r.1.length = c.length ∧ r.2 = if fine then none else some x := by
    intro q x
    refine .bind (k.packets_fits ..) fun l hl => .ok ⟨?_, rfl⟩
    have h1 : ∀ p ∈ (chunksExact k.stride c).take q, p.length = k.stride :=
      fun p hp => chunksExact_mem_length k.stride_pos (List.mem_of_mem_take hp)
    have h2 : l.flatten.length = ((chunksExact k.stride c).take q).flatten.length := by
      rw [List.length_flatten, List.length_flatten, hl]
    have h3 := length_flatten_uniform _ h1
    have h4 : ((chunksExact k.stride c).take q).length ≤ (chunksExact k.stride c).length :=
      List.length_take_le' ..
    have h5 := Nat.mul_le_mul_left k.stride h4
    have h6 := k.chunk_mul c
    rw [List.length_append, h2, h3, List.length_drop]
    omega
  cases fine with
  | true =>
    refine .bind (P := fun x => x = n) (.ok rfl) fun x hx => ?_
    exact main _ x
  | false =>
    refine .bind (P := fun x => x = c.length / k.stride * k.cap) (Arith.fits_mul ?_) fun x hx => ?_
    · have := hcap c.length
      have := hm rfl
      show c.length / k.stride * k.cap < _
      omega
    · subst hx
      exact main _ _

theorem compact_fits (b : Buf .ump) (h : 32 * b.length + 32 < 2 ^ w) :
    (k.compactU .unbounded b).Under (k.compactU (.checked w) b) fun b' => b'.length = b.length := by
  refine .ite (fun _ => .ok rfl) fun _ => .bind (k.payloadSize_fits (by omega)) fun n hn =>
    .bind (k.compactLoop_fits _ b 0 0 0 (by omega) (by omega) k.cap_pos' (by omega))
    fun b' hb => .bind (k.tryResize_fits .keep b' n (by omega) (fun h => by cases h))
    fun r hr => ?_
  obtain ⟨b2, _ | _⟩ := r
  · exact .ok (by rw [← hb]; exact hr.1)
  · exact .panic _ _

/-- A vector of at most `M` words. -/
theorem vec_fits {M : Nat} (dbg : Bool) (hM : 4 ≤ M) (hw : 1024 * M ≤ 2 ^ w) :
    (k.opsU .unbounded dbg .vec).FitsIn (k.opsU (.checked w) dbg .vec)
      (fun b => b.length ≤ M) (fun b => b.length ≤ 21 * M + 8) M (8 * M + 1) w where
  fits := by
    refine ⟨8 * M, 20 * M + 4, none, ?_, by omega, by omega, by omega, nofun⟩
    exact {
      small := fun h => by omega
      compact := fun {s} h => (k.compact_fits s (by omega)).weaken fun b hb => by omega
      payloadSize := fun {s} h => (k.payloadSize_fits (by omega)).weaken fun n hn => by omega
      moveTail := fun {s i j} h hi hj => (k.moveTail_fits dbg s i j (by omega) (by omega)).weaken
        fun b hb => by omega
      writeDatum := fun {s v i} h hi => (k.writeDatum_fits s v i (by omega)).weaken
        fun b hb => by omega
      resize := fun {s n} h hn => (k.tryResize_fits .vec s n (by omega) (fun h => by cases h)).weaken
        fun r hr => by
          have := (k.bufferSize_fits (w := w) n (by omega)).post _ (k.bufferSizeU_unbounded n)
          have h1 : r.1.length = (vecResize s (k.bufferSize n)).length := hr.1
          rw [length_vecResize] at h1
          have h2 : r.2 = none := hr.2
          rw [h2]
          exact ⟨by omega, nofun⟩
      reset := fun {s} h => (k.tryResize_fits .vec s 0 (by omega) (fun h => by cases h)).weaken
        fun r hr => by
          have h1 : r.1.length = (vecResize s (k.bufferSize 0)).length := hr.1
          rw [length_vecResize] at h1
          have : k.bufferSize 0 ≤ 4 := by cases k <;> decide
          omega }
  le := by omega
  pos := by omega

theorem bufferSize_cap {n L : Nat} (h : k.bufferSize n ≤ L) : n ≤ L / k.stride * k.cap := by
  rw [bufferSize_eq, count] at h
  split at h
  · omega
  · revert h
    cases k <;> simp only [stride, cap] <;> omega

/-- A buffer of fixed size with at most `M` words. -/
theorem fixed_fits {M L : Nat} (dbg : Bool) (hM : 4 ≤ M) (hL : L ≤ M) (hw : 1024 * M ≤ 2 ^ w) :
    (k.opsU .unbounded dbg .fixed).FitsIn (k.opsU (.checked w) dbg .fixed)
      (fun b => b.length = L) (fun b => b.length = L) M (8 * M + 1) w where
  fits := by
    have hcap : L / k.stride * k.cap ≤ 4 * L := by
      cases k <;> simp only [stride, cap] <;> omega
    have hr : ∀ {s : Buf .ump} {n}, s.length = L → n ≤ 20 * M + 4 →
        (k.tryResizeU .unbounded .fixed s n).Under (k.tryResizeU (.checked w) .fixed s n)
        fun r => r.1.length = L ∧ match r.2 with
          | some sz => some (L / k.stride * k.cap) = some sz
          | none => ∀ c, some (L / k.stride * k.cap) = some c → n ≤ c := by
      intro s n hs hn
      refine (k.tryResize_fits .fixed s n (by omega)
        (fun _ => by show 4 * s.length < _; omega)).weaken fun r hr => ?_
      have h1 : r.1.length = s.length := hr.1
      have h2 : r.2 = if decide (k.bufferSize n ≤ s.length) then none
        else some (s.length / k.stride * k.cap) := hr.2
      refine ⟨by omega, ?_⟩
      by_cases h : k.bufferSize n ≤ s.length
      · rw [if_pos (by simpa using h)] at h2
        rw [h2]
        intro c hc
        cases hc
        rw [← hs]
        exact k.bufferSize_cap h
      · rw [if_neg (by simpa using h)] at h2
        rw [h2, hs]
    refine ⟨8 * M, 20 * M + 4, some (L / k.stride * k.cap), ?_, by omega, by omega, by omega,
      fun c hc => by cases hc; omega⟩
    exact {
      small := fun h => h
      compact := fun {s} h => (k.compact_fits s (by omega)).weaken fun b hb => by omega
      payloadSize := fun {s} h => (k.payloadSize_fits (by omega)).weaken fun n hn => by omega
      moveTail := fun {s i j} h hi hj => (k.moveTail_fits dbg s i j (by omega) (by omega)).weaken
        fun b hb => by omega
      writeDatum := fun {s v i} h hi => (k.writeDatum_fits s v i (by omega)).weaken
        fun b hb => by omega
      resize := fun h hn => hr h hn
      reset := fun h => (hr h (Nat.zero_le _)).weaken fun r h => h.1 }
  le := by omega
  pos := by omega

end Sx

namespace Sxb

variable {w : Nat}

theorem payload_fits (b : Buf .bytes) (h : b.length < 2 ^ w) :
    (payloadU .unbounded b).Under (payloadU (.checked w) b)
      fun it => it.data.length ≤ b.length ∧ it.idx = 0 := by
  have hs : (sizeU .unbounded b).Under (sizeU (.checked w) b) fun _ => True := by
    unfold sizeU
    cases hf : endPos b with
    | none => exact .panic _ _
    | some i =>
      have := Sx.findIdx_bound hf
      exact (Arith.fits_add (by omega)).weaken fun _ _ => trivial
  refine .bind hs fun n _ => .bind (.same _) fun d _ => .bind (Arith.fits_sub ..) fun e _ =>
    .ite (fun _ => .ok ⟨?_, rfl⟩) fun _ => .panic _ _
  simp only [List.length_drop, List.length_take]
  omega

theorem len_post (it : It) : (len it).Under (len it) fun n => n ≤ it.data.length :=
  .rfl' _ fun x hx => by
    unfold len usub at hx
    split at hx
    · cases hx; omega
    · cases hx

theorem payloadSize_fits (b : Buf .bytes) (h : b.length < 2 ^ w) :
    (payloadSizeU .unbounded b).Under (payloadSizeU (.checked w) b) fun n => n ≤ b.length :=
  .bind (payload_fits b h) fun it hi => (len_post it).weaken fun n hn => by omega

theorem next_fits (it : It) (h : it.idx + 1 < 2 ^ w) :
    (nextU .unbounded it).Under (nextU (.checked w) it) fun r => r.2.idx ≤ it.idx + 1 := by
  unfold nextU
  cases it.data[it.idx]? with
  | none => exact .ok (by show it.idx ≤ _; omega)
  | some v =>
    exact .bind (.same _) fun v _ => .bind (Arith.fits_add h) fun i hi => .ok (by
      show i ≤ _
      omega)

theorem nth_fits (n : Nat) (it : It) (h : it.idx + n + 1 < 2 ^ w) :
    (nthU .unbounded n it).Under (nthU (.checked w) n it) fun r => r.2.idx ≤ it.idx + n + 1 := by
  refine .bind (Arith.fits_add (by omega)) fun i hi => ?_
  subst hi
  exact next_fits _ h

theorem setByte_fits (b : Buf .bytes) (v : BitVec 7) (i : Nat) (h : b.length < 2 ^ w) :
    (setByteU .unbounded b v i).Under (setByteU (.checked w) b v i)
      fun b' => b'.length = b.length := by
  by_cases hi : i + 1 < b.length
  · exact .bind (Arith.fits_add (by omega)) fun j _ => (modifyAt_post ..).weaken fun _ h => h.2
  · have : setByteU .unbounded b v i = .panic := by
      show modifyAt b (i + 1) _ = .panic
      unfold modifyAt
      rw [List.getElem?_eq_none (by omega)]
    rw [this]
    exact .panic _ _

theorem writeDatum_fits (b : Buf .bytes) (v : BitVec 7) (i : Nat) (h : i + 1 < 2 ^ w) :
    (writeDatumU .unbounded b v i).Under (writeDatumU (.checked w) b v i)
      fun b' => b'.length = b.length :=
  .bind (Arith.fits_add h) fun _ _ => (modifyAt_post ..).weaken fun _ h => h.2

theorem eraseEnd_fits (g : Bool) (old : Nat) (b : Buf .bytes) (h : old + 1 < 2 ^ w) :
    (eraseEndU .unbounded g old b).Under (eraseEndU (.checked w) g old b)
      fun b' => b'.length = b.length :=
  .ite (fun _ => .bind (Arith.fits_add h) fun _ _ => (modifyAt_post ..).weaken fun _ h => h.2)
    fun _ => .ok rfl

theorem resizeVec_fits (b : Buf .bytes) (n : Nat) (h : b.length + 1 < 2 ^ w) (hn : n + 2 < 2 ^ w) :
    (resizeVecU .unbounded b n).Under (resizeVecU (.checked w) b n)
      fun b' => b'.length = n + 2 := by
  refine .bind (Arith.fits_add hn) fun sz hs => .bind (payloadSize_fits b (by omega))
    fun old ho => .bind (eraseEnd_fits _ _ _ (by omega)) fun b' hb => .bind (Arith.fits_sub ..)
    fun j _ => (modifyAt_post ..).weaken fun b2 h => ?_
  have : (vecResize b sz).length = sz := by simp [vecResize]; omega
  omega

theorem tryResizeFixed_fits (b : Buf .bytes) (n : Nat) (h : b.length + 1 < 2 ^ w)
    (hn : n + 2 < 2 ^ w) :
    (tryResizeFixedU .unbounded b n).Under (tryResizeFixedU (.checked w) b n)
      fun r => r.1.length = b.length ∧
        r.2 = if n + 2 ≤ b.length then none else some (b.length - 2) := by
  refine .bind (payloadSize_fits b (by omega)) fun old ho => .bind (Arith.fits_add hn) fun sz hs =>
    .bind (eraseEnd_fits _ _ _ (by omega)) fun b' hb => .bind (Arith.fits_sub ..) fun j _ =>
    .bind (modifyAt_post ..) fun b2 hb2 => .ok ⟨by show b2.length = _; omega, ?_⟩
  subst hs
  have : b2.length = b.length := by omega
  simp only [this, decide_eq_true_eq]

theorem copyWithin_post (b : Buf .bytes) (i j t : Nat) :
    (copyWithin b i j t).Under (copyWithin b i j t) fun b' => b'.length = b.length :=
  .rfl' _ fun x hx => by
    unfold copyWithin at hx
    split at hx
    · cases hx
      simp only [List.length_append, List.length_take, List.length_drop]
      omega
    · cases hx

theorem moveTail_fits (b : Buf .bytes) (i j : Nat) (h : b.length + i + j + 2 < 2 ^ w) :
    (moveTailU .unbounded b i j).Under (moveTailU (.checked w) b i j)
      fun b' => b'.length = b.length :=
  .bind (payloadSize_fits b (by omega)) fun n hn => .ite
    (fun _ => .bind (Arith.fits_add (by omega)) fun x _ => .bind (Arith.fits_add (by omega))
      fun y _ => .bind (Arith.fits_add (by omega)) fun z _ => copyWithin_post ..)
    fun _ => .ite
      (fun _ => .bind (Arith.fits_add (by omega)) fun x _ => .bind (Arith.fits_add (by omega))
        fun y _ => .bind (Arith.fits_add (by omega)) fun z _ => copyWithin_post ..)
      fun _ => .ok rfl

/-- A vector of at most `M` bytes. -/
theorem vec_fits {M : Nat} (hM : 4 ≤ M) (hw : 1024 * M ≤ 2 ^ w) :
    (opsU .unbounded false).FitsIn (opsU (.checked w) false)
      (fun b => b.length ≤ M) (fun b => b.length ≤ 21 * M + 8) M (8 * M + 1) w where
  fits := by
    refine ⟨8 * M, 20 * M + 4, none, ?_, by omega, by omega, by omega, nofun⟩
    exact {
      small := fun h => by omega
      compact := fun h => .ok h
      payloadSize := fun {s} h => (payloadSize_fits s (by omega)).weaken fun n hn => by omega
      moveTail := fun {s i j} h hi hj => (moveTail_fits s i j (by omega)).weaken
        fun b hb => by omega
      writeDatum := fun {s v i} h hi => (writeDatum_fits s v i (by omega)).weaken
        fun b hb => by omega
      resize := fun {s n} h hn => .bind (resizeVec_fits s n (by omega) (by omega))
        fun r hr => .ok ⟨by show r.length ≤ _; omega, nofun⟩
      reset := fun {s} h => .bind (resizeVec_fits s 0 (by omega) (by omega))
        fun r hr => .ok (by show r.length ≤ _; omega) }
  le := by omega
  pos := by omega

end Sxb

end Midi2
