import Verif.Lemmas.Usize

/-! # Arithmetic that agrees unless the first panics -/

namespace Midi2

/-- Every operation of the first panics or gives what the second gives. -/
structure Arith.Agree (A A' : Arith) : Prop where
  sub : ∀ a b, (A.sub a b).Agree (A'.sub a b)
  add : ∀ a b, (A.add a b).Agree (A'.add a b)
  mul : ∀ a b, (A.mul a b).Agree (A'.mul a b)
  sub8 : ∀ a b, (A.sub8 a b).Agree (A'.sub8 a b)
  add8 : ∀ a b, (A.add8 a b).Agree (A'.add8 a b)

theorem Arith.checked_unbounded (w : Nat) : (checked w).Agree unbounded where
  sub a b := .rfl' _
  add a b := by
    refine ⟨fun h => ?_⟩
    by_cases hc : a + b < 2 ^ w
    · show _ = (if a + b < 2 ^ w then Res.ok (a + b) else .panic)
      rw [if_pos hc]; rfl
    · exact absurd (if_neg hc) h
  mul a b := by
    refine ⟨fun h => ?_⟩
    by_cases hc : a * b < 2 ^ w
    · show _ = (if a * b < 2 ^ w then Res.ok (a * b) else .panic)
      rw [if_pos hc]; rfl
    · exact absurd (if_neg hc) h
  sub8 a b := .rfl' _
  add8 a b := by
    refine ⟨fun h => ?_⟩
    by_cases hc : a + b < 2 ^ 8
    · show _ = (if a + b < 2 ^ 8 then Res.ok (a + b) else .panic)
      rw [if_pos hc]; rfl
    · exact absurd (if_neg hc) h

theorem Arith.checked_wrapping (w : Nat) : (checked w).Agree (wrapping w) where
  sub a b := by
    refine ⟨fun h => ?_⟩
    by_cases hc : b ≤ a
    · show Res.ok (if b ≤ a then a - b else 2 ^ w + a - b) = usub a b
      rw [if_pos hc, usub, if_pos hc]
    · exact absurd (if_neg hc) h
  add a b := by
    refine ⟨fun h => ?_⟩
    by_cases hc : a + b < 2 ^ w
    · show Res.ok (if a + b < 2 ^ w then a + b else (a + b) % 2 ^ w) =
        (if a + b < 2 ^ w then Res.ok (a + b) else .panic)
      rw [if_pos hc, if_pos hc]
    · exact absurd (if_neg hc) h
  mul a b := by
    refine ⟨fun h => ?_⟩
    by_cases hc : a * b < 2 ^ w
    · show Res.ok (if a * b < 2 ^ w then a * b else (a * b) % 2 ^ w) =
        (if a * b < 2 ^ w then Res.ok (a * b) else .panic)
      rw [if_pos hc, if_pos hc]
    · exact absurd (if_neg hc) h
  sub8 a b := by
    refine ⟨fun h => ?_⟩
    by_cases hc : b ≤ a
    · show Res.ok (if b ≤ a then a - b else 2 ^ 8 + a - b) = usub a b
      rw [if_pos hc, usub, if_pos hc]
    · exact absurd (if_neg hc) h
  add8 a b := by
    refine ⟨fun h => ?_⟩
    by_cases hc : a + b < 2 ^ 8
    · show Res.ok (if a + b < 2 ^ 8 then a + b else (a + b) % 2 ^ 8) =
        (if a + b < 2 ^ 8 then Res.ok (a + b) else .panic)
      rw [if_pos hc, if_pos hc]
    · exact absurd (if_neg hc) h

/-- Every method of the first panics or gives what the second gives. -/
structure SxOps.AgreeAll {S β : Type} (o o' : SxOps S β) : Prop where
  compact : ∀ s, (o.compact s).Agree (o'.compact s)
  payloadSize : ∀ s, (o.payloadSize s).Agree (o'.payloadSize s)
  writeDatum : ∀ s v i, (o.writeDatum s v i).Agree (o'.writeDatum s v i)
  resize : ∀ s n, (o.resize s n).Agree (o'.resize s n)
  moveTail : ∀ s i j, (o.moveTail s i j).Agree (o'.moveTail s i j)

namespace SxOps.AgreeAll

variable {S β : Type} {o o' : SxOps S β} {A A' : Arith}

theorem fill (hA : A.Agree A') (h : AgreeAll o o') (begin est : Nat) (l : List β) (s : S) (w : Nat) :
    (o.fillU A begin est l s w).Agree (o'.fillU A' begin est l s w) := by
  induction l generalizing s w with
  | nil => exact .rfl' _
  | cons v rest ih =>
    simp only [SxOps.fillU]
    refine .ite ?_ (.rfl' _)
    exact .bind (hA.add ..) fun i => .bind (h.writeDatum ..) fun s => .bind (hA.add ..) fun w => ih ..

theorem firstGrow (hA : A.Agree A') (h : AgreeAll o o') (s : S) (a b c d : Nat) :
    (o.firstGrowU A s a b c d).Agree (o'.firstGrowU A' s a b c d) := by
  simp only [SxOps.firstGrowU]
  refine .bind (hA.add ..) fun e => .bind (hA.sub ..) fun g => .ite ?_ (.rfl' _)
  refine .bind (hA.add ..) fun n => .bind (hA.sub ..) fun n => .bind (h.resize ..) fun r => ?_
  obtain ⟨s, _ | sz⟩ := r
  · exact .rfl' _
  · exact .bind (hA.sub ..) fun _ => .rfl' _

theorem growMore (hA : A.Agree A') (h : AgreeAll o o') (s : S) (a b c d e : Nat) :
    (o.growMoreU A s a b c d e).Agree (o'.growMoreU A' s a b c d e) := by
  simp only [SxOps.growMoreU]
  refine .bind (hA.add ..) fun t => .ite ?_ (.rfl' _)
  refine .bind (hA.add ..) fun n => .bind (hA.sub ..) fun n => .bind (h.resize ..) fun r => ?_
  obtain ⟨s, _ | sz⟩ := r
  · exact .rfl' _
  · exact .bind (hA.sub ..) fun _ => .bind (hA.add ..) fun _ => .bind (hA.sub ..) fun _ => .rfl' _

theorem mainLoop (hA : A.Agree A') (h : AgreeAll o o') (begin initial sp : Nat) (fuel : Nat) (s : S)
    (l : List β) (w e a t : Nat) :
    (o.mainLoopU A begin initial sp fuel s l w e a t).Agree
      (o'.mainLoopU A' begin initial sp fuel s l w e a t) := by
  induction fuel generalizing s l w e a t with
  | zero => exact .rfl' _
  | succ fuel ih =>
    simp only [SxOps.mainLoopU]
    refine .bind (h.fill hA ..) fun x => ?_
    refine .ite (.rfl' _) ?_
    refine .bind (.rfl' _) fun _ => ?_
    refine .ite (.rfl' _) ?_
    refine .bind (hA.add ..) fun e => .bind (h.growMore hA ..) fun y => ?_
    refine .bind (h.moveTail _ _ _) fun s => .bind (hA.add ..) fun t => .bind (hA.mul ..) fun a => ?_
    exact .ite (.rfl' _) (ih ..)

theorem spliceBegin (hA : A.Agree A') (rb : Bound) :
    (rb.spliceBeginU A).Agree (rb.spliceBeginU A') := by
  cases rb
  · exact .rfl' _
  · exact hA.add ..
  · exact .rfl' _

theorem spliceEnd (hA : A.Agree A') (n : Nat) (re : Bound) :
    (re.spliceEndU A n).Agree (re.spliceEndU A' n) := by
  cases re
  · exact hA.add ..
  · exact .rfl' _
  · exact .rfl' _

theorem trySpliceDetail (hA : A.Agree A') (h : AgreeAll o o') (s : S) (d : Src β) (rb re : Bound) :
    (o.trySpliceDetailU A s d rb re).Agree (o'.trySpliceDetailU A' s d rb re) := by
  simp only [SxOps.trySpliceDetailU]
  refine .bind (h.compact _) fun s => .bind (h.payloadSize _) fun n =>
    .bind (spliceBegin hA _) fun i => .bind (spliceEnd hA ..) fun e => .bind (hA.sub ..) fun sp =>
    .bind (h.firstGrow hA ..) fun x => .bind (hA.add ..) fun t => .bind (hA.sub ..) fun t =>
    .bind (h.moveTail ..) fun s => .bind (h.mainLoop hA ..) fun e => ?_
  cases e with
  | overflow s => exact .rfl' _
  | done s w t =>
    exact .bind (hA.add ..) fun t => .bind (h.moveTail ..) fun s => .bind (hA.add ..) fun _ =>
      .bind (hA.sub ..) fun _ => .bind (h.resize ..) fun _ => .rfl' _

theorem trySplice (hA : A.Agree A') (h : AgreeAll o o') (s : S) (d : Src β) (rb re : Bound) :
    (o.trySpliceU A s d rb re).Agree (o'.trySpliceU A' s d rb re) := by
  simp only [SxOps.trySpliceU]
  refine .bind (h.trySpliceDetail hA ..) fun x => ?_
  obtain ⟨s, _ | e⟩ := x
  · exact .rfl' _
  · exact .bind (h.resize ..) fun _ => .rfl' _

theorem splice (hA : A.Agree A') (h : AgreeAll o o') (s : S) (d : Src β) (rb re : Bound) :
    (o.spliceU A s d rb re).Agree (o'.spliceU A' s d rb re) := by
  simp only [SxOps.spliceU]
  exact .bind (h.trySpliceDetail hA ..) fun _ => .rfl' _

theorem append (hA : A.Agree A') (h : AgreeAll o o') (s : S) (d : Src β) :
    (o.appendU A s d).Agree (o'.appendU A' s d) :=
  .bind (h.payloadSize _) fun _ => h.splice hA ..

theorem tryAppend (hA : A.Agree A') (h : AgreeAll o o') (s : S) (d : Src β) :
    (o.tryAppendU A s d).Agree (o'.tryAppendU A' s d) :=
  .bind (h.payloadSize _) fun _ => h.trySplice hA ..

theorem appendByte (hA : A.Agree A') (h : AgreeAll o o') (s : S) (v : β) :
    (o.appendByteU A s v).Agree (o'.appendByteU A' s v) :=
  .bind (h.payloadSize _) fun _ => h.splice hA ..

theorem tryAppendByte (hA : A.Agree A') (h : AgreeAll o o') (s : S) (v : β) :
    (o.tryAppendByteU A s v).Agree (o'.tryAppendByteU A' s v) :=
  .bind (h.payloadSize _) fun _ => h.trySplice hA ..

theorem setPayload (hA : A.Agree A') (h : AgreeAll o o') (s : S) (d : Src β) :
    (o.setPayloadU A s d).Agree (o'.setPayloadU A' s d) := by
  refine .bind (h.resize ..) fun x => ?_
  obtain ⟨s, _ | r⟩ := x
  · exact h.splice hA ..
  · exact .rfl' _

theorem trySetPayload (hA : A.Agree A') (h : AgreeAll o o') (s : S) (d : Src β) :
    (o.trySetPayloadU A s d).Agree (o'.trySetPayloadU A' s d) := by
  refine .bind (h.resize ..) fun x => ?_
  obtain ⟨s, _ | r⟩ := x
  · exact h.trySplice hA ..
  · exact .rfl' _

end SxOps.AgreeAll

namespace Arith.Agree

variable {A A' : Arith}

theorem packetSize (hA : A.Agree A') (k : Sx) (w : BitVec 32) :
    (k.packetSizeU A w).Agree (k.packetSizeU A' w) := by
  cases k
  · exact .rfl' _
  · exact hA.sub ..

theorem packetSize8 (hA : A.Agree A') (k : Sx) (w : BitVec 32) :
    (k.packetSize8U A w).Agree (k.packetSize8U A' w) := by
  cases k
  · exact .rfl' _
  · exact hA.sub8 ..

theorem data (hA : A.Agree A') (k : Sx) (b : Buf .ump) :
    (k.dataU A b).Agree (k.dataU A' b) := by
  unfold Sx.dataU Sx.sizeU
  refine .bind ?_ fun n => .rfl' _
  cases (chunksExact k.stride b).findIdx? (fun p => Sx.isLast (head0 p)) with
  | none => exact .rfl' _
  | some i => exact .bind (hA.mul ..) fun n => hA.add ..

theorem sumSizes (hA : A.Agree A') (k : Sx) (l : List (Buf .ump)) (acc : Nat) :
    (k.sumSizesU A acc l).Agree (k.sumSizesU A' acc l) := by
  induction l generalizing acc with
  | nil => exact .rfl' _
  | cons p ps ih => exact .bind (hA.packetSize ..) fun n => .bind (hA.add ..) fun acc => ih acc

theorem payload (hA : A.Agree A') (k : Sx) (b : Buf .ump) :
    (k.payloadU A b).Agree (k.payloadU A' b) :=
  .bind (hA.data ..) fun d => .bind (hA.sumSizes ..) fun n => .rfl' _

theorem payloadSize (hA : A.Agree A') (k : Sx) (b : Buf .ump) :
    (k.payloadSizeU A b).Agree (k.payloadSizeU A' b) :=
  .bind (hA.payload ..) fun _ => .rfl' _

theorem curSize (hA : A.Agree A') (k : Sx) (b : Buf .ump) (p : Nat) :
    (k.curSizeU A b p).Agree (k.curSizeU A' b p) :=
  .bind (hA.mul ..) fun i => .bind (hA.add ..) fun j => .ite
    (.bind (.rfl' _) fun w => hA.packetSize ..) (.rfl' _)

theorem skipEmpty (hA : A.Agree A') (k : Sx) (b : Buf .ump) (fuel : Nat) (it : Sx.It) :
    (k.skipEmptyU A b fuel it).Agree (k.skipEmptyU A' b fuel it) := by
  induction fuel generalizing it with
  | zero => exact .rfl' _
  | succ fuel ih =>
    simp only [Sx.skipEmptyU]
    exact .ite (.rfl' _) (.bind (hA.curSize ..) fun sz => .ite (.bind (hA.add ..) fun p => ih _)
      (.rfl' _))

theorem value (hA : A.Agree A') (k : Sx) (b : Buf .ump) (it : Sx.It) :
    (k.valueU A b it).Agree (k.valueU A' b it) :=
  .bind (hA.mul ..) fun p => .bind (hA.add ..) fun o => .bind (hA.add ..) fun i =>
    .bind (.rfl' _) fun w => .rfl' _

theorem advance (hA : A.Agree A') (k : Sx) (b : Buf .ump) (it : Sx.It) :
    (k.advanceU A b it).Agree (k.advanceU A' b it) := by
  unfold Sx.advanceU
  refine .bind (hA.add ..) fun i => .bind (hA.curSize ..) fun sz => ?_
  cases k with
  | s7 => exact .ite (.bind (hA.add ..) fun p => hA.skipEmpty ..) (hA.skipEmpty ..)
  | s8 => exact .ite (.bind (hA.add ..) fun p => .rfl' _) (.rfl' _)

theorem next (hA : A.Agree A') (k : Sx) (b : Buf .ump) (it : Sx.It) :
    (k.nextU A b it).Agree (k.nextU A' b it) := by
  unfold Sx.nextU
  exact .ite (.rfl' _) (.bind (hA.skipEmpty ..) fun it => .bind (hA.value ..) fun v =>
    .bind (hA.advance ..) fun it => .rfl' _)

theorem nthLoop (hA : A.Agree A') (k : Sx) (l : List (Buf .ump)) (rel n : Nat) (it : Sx.It) :
    (k.nthLoopU A l rel n it).Agree (k.nthLoopU A' l rel n it) := by
  induction l generalizing rel n it with
  | nil => exact .rfl' _
  | cons p ps ih =>
    simp only [Sx.nthLoopU]
    exact .bind (hA.packetSize ..) fun sz => .ite
      (.bind (hA.add ..) fun q => .bind (hA.sub ..) fun c => .rfl' _)
      (.bind (hA.sub ..) fun c => ih ..)

theorem nth (hA : A.Agree A') (k : Sx) (b : Buf .ump) (n : Nat) (it : Sx.It) :
    (k.nthU A b n it).Agree (k.nthU A' b n it) := by
  unfold Sx.nthU Sx.doNthU
  refine .bind (.bind (hA.mul ..) fun i => .ite (.rfl' _) ?_) fun _ => .rfl' _
  cases chunksExact k.stride (b.drop i) with
  | nil => exact .rfl' _
  | cons p ps =>
    refine .bind (hA.packetSize ..) fun sz => .bind (hA.sub ..) fun r => .ite
      (.bind (hA.add ..) fun i => .bind (hA.sub ..) fun c => hA.next ..)
      (.bind (hA.sub ..) fun c => .bind (hA.nthLoop ..) fun x => ?_)
    obtain ⟨it, _ | _⟩ := x
    · exact .rfl' _
    · exact hA.next ..

theorem collect (hA : A.Agree A') (k : Sx) (b : Buf .ump) (fuel : Nat) (it : Sx.It) :
    (k.collectU A b fuel it).Agree (k.collectU A' b fuel it) := by
  induction fuel generalizing it with
  | zero => exact .rfl' _
  | succ fuel ih =>
    refine .bind (hA.next ..) fun x => ?_
    obtain ⟨_ | v, it⟩ := x
    · exact .rfl' _
    · exact .bind (ih _) fun _ => .rfl' _

theorem payloadList (hA : A.Agree A') (k : Sx) (b : Buf .ump) :
    (k.payloadListU A b).Agree (k.payloadListU A' b) :=
  .bind (hA.payload ..) fun it => hA.collect ..

theorem bufferSize (hA : A.Agree A') (k : Sx) (n : Nat) :
    (k.bufferSizeU A n).Agree (k.bufferSizeU A' n) := by
  unfold Sx.bufferSizeU
  refine .ite (.ite (.rfl' _) ?_) (.bind (hA.add ..) fun m => hA.mul ..)
  cases k
  · exact .rfl' _
  · exact .bind (hA.mul ..) fun _ => .rfl' _

theorem sizeNibble (hA : A.Agree A') (k : Sx) (n : Nat) :
    (k.sizeNibbleU A n).Agree (k.sizeNibbleU A' n) := by
  cases k
  · exact .rfl' _
  · exact .bind (hA.add8 ..) fun _ => .rfl' _

theorem firstHead (hA : A.Agree A') (k : Sx) (n : Nat) (only : Bool) (w : BitVec 32) :
    (k.firstHeadU A n only w).Agree (k.firstHeadU A' n only w) :=
  .ite (.bind (hA.sizeNibble ..) fun _ => .rfl' _) (.rfl' _)

theorem restPackets (hA : A.Agree A') (k : Sx) (n : Nat) (g : BitVec 4) (l : List (Buf .ump)) :
    (k.restPacketsU A n g l).Agree (k.restPacketsU A' n g l) := by
  induction l with
  | nil => exact .rfl' _
  | cons p ps ih =>
    cases ps with
    | nil =>
      exact .bind (.rfl' _) fun p => .ite (.rfl' _) (.bind (hA.sizeNibble ..) fun _ => .rfl' _)
    | cons q ps => exact .bind (.rfl' _) fun p => .bind ih fun _ => .rfl' _

theorem packets (hA : A.Agree A') (k : Sx) (n : Nat) (l : List (Buf .ump)) :
    (k.packetsU A n l).Agree (k.packetsU A' n l) := by
  cases l with
  | nil => exact .rfl' _
  | cons p ps =>
    exact .bind (.rfl' _) fun w => .bind (hA.firstHead ..) fun w' => .bind (.rfl' _) fun p =>
      .bind (hA.restPackets ..) fun _ => .rfl' _

theorem tryResize (hA : A.Agree A') (k : Sx) (m : Sx.Mem) (b : Buf .ump) (n : Nat) :
    (k.tryResizeU A m b n).Agree (k.tryResizeU A' m b n) := by
  unfold Sx.tryResizeU Sx.takenU
  exact .bind (hA.bufferSize ..) fun sz => .bind (.ite (.rfl' _) (hA.mul ..)) fun n =>
    .bind (hA.packets ..) fun _ => .rfl' _

theorem writeDatum (hA : A.Agree A') (k : Sx) (b : Buf .ump) (v : k.Byte) (i : Nat) :
    (k.writeDatumU A b v i).Agree (k.writeDatumU A' b v i) :=
  .bind (hA.mul ..) fun p => .bind (hA.add ..) fun j => .rfl' _

theorem addr (hA : A.Agree A') (k : Sx) (i : Nat) : (k.addrU A i).Agree (k.addrU A' i) :=
  .bind (hA.add ..) fun _ => .bind (hA.mul ..) fun _ => hA.add ..

theorem moveUp (hA : A.Agree A') (k : Sx) (d tail n : Nat) (b : Buf .ump) :
    (k.moveUpU A d tail n b).Agree (k.moveUpU A' d tail n b) := by
  induction n generalizing b with
  | zero => exact .rfl' _
  | succ n ih =>
    exact .bind (hA.addr ..) fun s => .bind (hA.add ..) fun j => .bind (hA.addr ..) fun t =>
      .bind (.rfl' _) fun b => ih b

theorem moveDown (hA : A.Agree A') (k : Sx) (d i n : Nat) (b : Buf .ump) :
    (k.moveDownU A d i n b).Agree (k.moveDownU A' d i n b) := by
  induction n generalizing b i with
  | zero => exact .rfl' _
  | succ n ih =>
    exact .bind (hA.addr ..) fun s => .bind (hA.sub ..) fun j => .bind (hA.addr ..) fun t =>
      .bind (.rfl' _) fun b => ih (i + 1) b

theorem moveTail (hA : A.Agree A') (k : Sx) (dbg : Bool) (b : Buf .ump) (i j : Nat) :
    (k.moveTailU A dbg b i j).Agree (k.moveTailU A' dbg b i j) :=
  .bind (.rfl' _) fun _ => .bind (hA.payloadSize ..) fun ps => .ite
    (.bind (hA.sub ..) fun hi => hA.moveUp ..) (.ite (hA.moveDown ..) (.rfl' _))

theorem compactPacket (hA : A.Agree A') (k : Sx) (src : Nat) (l : List Nat) (b : Buf .ump)
    (dp di : Nat) :
    (k.compactPacketU A src l b dp di).Agree (k.compactPacketU A' src l b dp di) := by
  induction l generalizing b dp di with
  | nil => exact .rfl' _
  | cons i is ih =>
    exact .bind (hA.mul ..) fun _ => .bind (hA.add ..) fun _ => .bind (hA.add ..) fun _ =>
      .bind (.rfl' _) fun _ => .bind (hA.mul ..) fun _ => .bind (hA.add ..) fun _ =>
      .bind (hA.add ..) fun _ => .bind (.rfl' _) fun _ => .bind (hA.add ..) fun _ => .ite
      (.bind (hA.add ..) fun _ => ih ..) (ih ..)

theorem compactLoop (hA : A.Agree A') (k : Sx) (fuel : Nat) (b : Buf .ump) (src dp di : Nat) :
    (k.compactLoopU A fuel b src dp di).Agree (k.compactLoopU A' fuel b src dp di) := by
  induction fuel generalizing b src dp di with
  | zero => exact .rfl' _
  | succ fuel ih =>
    exact .bind (hA.mul ..) fun _ => .bind (.rfl' _) fun _ => .ite (.rfl' _)
      (.bind (hA.packetSize8 ..) fun _ => .bind (hA.compactPacket ..) fun _ =>
        .bind (hA.add ..) fun _ => .ite (.rfl' _) (ih ..))

theorem compact (hA : A.Agree A') (k : Sx) (b : Buf .ump) :
    (k.compactU A b).Agree (k.compactU A' b) :=
  .ite (.rfl' _) (.bind (hA.payloadSize ..) fun _ => .bind (hA.compactLoop ..) fun _ =>
    .bind (hA.tryResize ..) fun _ => .rfl' _)

theorem setByteLoop (hA : A.Agree A') (k : Sx) (v : k.Byte) (fuel : Nat) (b : Buf .ump)
    (p i : Nat) : (k.setByteLoopU A v fuel b p i).Agree (k.setByteLoopU A' v fuel b p i) := by
  induction fuel generalizing p i with
  | zero => exact .rfl' _
  | succ fuel ih =>
    exact .bind (hA.mul ..) fun _ => .bind (.rfl' _) fun _ => .bind (hA.packetSize8 ..) fun _ =>
      .ite (.bind (hA.add ..) fun _ => .bind (hA.add ..) fun _ => .rfl' _)
        (.bind (hA.add ..) fun _ => ih ..)

theorem ops (hA : A.Agree A') (k : Sx) (dbg : Bool) (m : Sx.Mem) :
    (k.opsU A dbg m).AgreeAll (k.opsU A' dbg m) where
  compact := hA.compact k
  payloadSize := hA.payloadSize k
  writeDatum := hA.writeDatum k
  resize := hA.tryResize k m
  moveTail := hA.moveTail k dbg

/-! ### Bytes -/

theorem payloadBytes (hA : A.Agree A') (b : Buf .bytes) :
    (Sxb.payloadU A b).Agree (Sxb.payloadU A' b) := by
  unfold Sxb.payloadU Sxb.sizeU
  refine .bind ?_ fun n => .bind (.rfl' _) fun d => .bind (hA.sub ..) fun e => .rfl' _
  cases Sxb.endPos b
  · exact .rfl' _
  · exact hA.add ..

theorem payloadSizeBytes (hA : A.Agree A') (b : Buf .bytes) :
    (Sxb.payloadSizeU A b).Agree (Sxb.payloadSizeU A' b) :=
  .bind (hA.payloadBytes b) fun _ => .rfl' _

theorem nextBytes (hA : A.Agree A') (it : Sxb.It) :
    (Sxb.nextU A it).Agree (Sxb.nextU A' it) := by
  unfold Sxb.nextU
  cases it.data[it.idx]? with
  | none => exact .rfl' _
  | some v => exact .bind (.rfl' _) fun _ => .bind (hA.add ..) fun _ => .rfl' _

theorem nthBytes (hA : A.Agree A') (n : Nat) (it : Sxb.It) :
    (Sxb.nthU A n it).Agree (Sxb.nthU A' n it) :=
  .bind (hA.add ..) fun _ => hA.nextBytes _

theorem collectBytes (hA : A.Agree A') (fuel : Nat) (it : Sxb.It) :
    (Sxb.collectU A fuel it).Agree (Sxb.collectU A' fuel it) := by
  induction fuel generalizing it with
  | zero => exact .rfl' _
  | succ fuel ih =>
    refine .bind (hA.nextBytes _) fun x => ?_
    obtain ⟨_ | v, it⟩ := x
    · exact .rfl' _
    · exact .bind (ih _) fun _ => .rfl' _

theorem payloadListBytes (hA : A.Agree A') (b : Buf .bytes) :
    (Sxb.payloadListU A b).Agree (Sxb.payloadListU A' b) :=
  .bind (hA.payloadBytes b) fun _ => hA.collectBytes ..

theorem setByteBytes (hA : A.Agree A') (b : Buf .bytes) (v : BitVec 7) (i : Nat) :
    (Sxb.setByteU A b v i).Agree (Sxb.setByteU A' b v i) :=
  .bind (hA.add ..) fun _ => .rfl' _

theorem eraseEnd (hA : A.Agree A') (g : Bool) (old : Nat) (b : Buf .bytes) :
    (Sxb.eraseEndU A g old b).Agree (Sxb.eraseEndU A' g old b) :=
  .ite (.bind (hA.add ..) fun _ => .rfl' _) (.rfl' _)

theorem opsBytes (hA : A.Agree A') (fixed : Bool) :
    (Sxb.opsU A fixed).AgreeAll (Sxb.opsU A' fixed) where
  compact _ := .rfl' _
  payloadSize := hA.payloadSizeBytes
  writeDatum _ _ _ := .bind (hA.add ..) fun _ => .rfl' _
  resize b n := by
    refine .ite ?_ (.bind ?_ fun _ => .rfl' _)
    · exact .bind (hA.payloadSizeBytes _) fun _ => .bind (hA.add ..) fun _ =>
        .bind (hA.eraseEnd ..) fun _ => .bind (hA.sub ..) fun _ => .rfl' _
    · exact .bind (hA.add ..) fun _ => .bind (hA.payloadSizeBytes _) fun _ =>
        .bind (hA.eraseEnd ..) fun _ => .bind (hA.sub ..) fun _ => .rfl' _
  moveTail b i j :=
    .bind (hA.payloadSizeBytes _) fun _ => .ite
      (.bind (hA.add ..) fun _ => .bind (hA.add ..) fun _ => .bind (hA.add ..) fun _ => .rfl' _)
      (.ite (.bind (hA.add ..) fun _ => .bind (hA.add ..) fun _ => .bind (hA.add ..) fun _ => .rfl' _)
        (.rfl' _))

/-! ### Packets -/

theorem packetPayloadSize (hA : A.Agree A') (dbg : Bool) (k : Sx) (p : Buf .ump) :
    (Packet.payloadSizeU A dbg k p).Agree (Packet.payloadSizeU A' dbg k p) :=
  .bind (.rfl' _) fun _ => .bind (hA.packetSize ..) fun _ => .rfl' _

theorem packetValue (hA : A.Agree A') (k : Sx) (p : Buf .ump) (i : Nat) :
    (Packet.payloadValueU A k p i).Agree (Packet.payloadValueU A' k p i) :=
  .bind (hA.add ..) fun _ => .rfl' _

theorem packetNext (hA : A.Agree A') (dbg : Bool) (k : Sx) (p : Buf .ump) (i : Nat) :
    (Packet.nextU A dbg k p i).Agree (Packet.nextU A' dbg k p i) :=
  .bind (hA.packetPayloadSize ..) fun _ => .ite (.rfl' _)
    (.bind (hA.packetValue ..) fun _ => .bind (hA.add ..) fun _ => .rfl' _)

theorem packetNth (hA : A.Agree A') (dbg : Bool) (k : Sx) (p : Buf .ump) (n i : Nat) :
    (Packet.nthU A dbg k p n i).Agree (Packet.nthU A' dbg k p n i) := by
  refine .bind (hA.add ..) fun _ => .bind (hA.packetPayloadSize ..) fun _ => .ite (.rfl' _)
    (.bind (hA.packetValue ..) fun _ => ?_)
  cases k
  · exact .bind (hA.add ..) fun _ => .bind (hA.add ..) fun _ => .rfl' _
  · exact .rfl' _

theorem packetLen (hA : A.Agree A') (dbg withLen : Bool) (k : Sx) (p : Buf .ump) (i : Nat) :
    (ItCall.packetLenU A dbg withLen k p i).Agree (ItCall.packetLenU A' dbg withLen k p i) :=
  .ite (.bind (.bind (hA.packetPayloadSize ..) fun _ => hA.sub ..) fun _ => .rfl' _) (.rfl' _)

/-! ### Histories -/

theorem exec (hA : A.Agree A') {k : Sx} (c : SxCall k) (dbg : Bool) (b : Buf .ump) :
    (c.execU A dbg b).Agree (c.execU A' dbg b) := by
  have h := hA.ops k dbg .vec
  cases c with
  | setGroup g => exact .rfl' _
  | setPayload d => exact h.setPayload hA b d
  | splicePayload d rb re => exact h.splice hA b d rb re
  | insertPayload d i => exact h.splice hA b d _ _
  | appendPayload d => exact h.append hA b d
  | appendByte v => exact h.appendByte hA b v
  | setPayloadByte i v => exact hA.setByteLoop ..

theorem execAll (hA : A.Agree A') {k : Sx} (cs : List (SxCall k)) (dbg : Bool) (b : Buf .ump) :
    (SxCall.execAllU A dbg cs b).Agree (SxCall.execAllU A' dbg cs b) := by
  induction cs generalizing b with
  | nil => exact .rfl' _
  | cons c cs ih => exact .bind (hA.exec c dbg b) ih

theorem tryExec (hA : A.Agree A') {k : Sx} (c : SxTryCall k) (dbg : Bool) (b : Buf .ump) :
    (c.execU A dbg b).Agree (c.execU A' dbg b) := by
  have h := hA.ops k dbg .fixed
  cases c with
  | setGroup g => exact .rfl' _
  | setPayload d => exact h.trySetPayload hA b d
  | splicePayload d rb re => exact h.trySplice hA b d rb re
  | insertPayload d i => exact h.trySplice hA b d _ _
  | appendPayload d => exact h.tryAppend hA b d
  | appendByte v => exact h.tryAppendByte hA b v
  | setPayloadByte i v => exact .bind (hA.setByteLoop ..) fun _ => .rfl' _

theorem tryExecAll (hA : A.Agree A') {k : Sx} (cs : List (SxTryCall k)) (dbg : Bool)
    (b : Buf .ump) : (SxTryCall.execAllU A dbg cs b).Agree (SxTryCall.execAllU A' dbg cs b) := by
  induction cs generalizing b with
  | nil => exact .rfl' _
  | cons c cs ih => exact .bind (hA.tryExec c dbg b) fun x => .bind (ih x.1) fun _ => .rfl' _

theorem execBytes (hA : A.Agree A') (c : SxCall .s7) (b : Buf .bytes) :
    (c.execBytesU A b).Agree (c.execBytesU A' b) := by
  have h := hA.opsBytes false
  cases c with
  | setGroup g => exact .rfl' _
  | setPayload d => exact h.setPayload hA b d
  | splicePayload d rb re => exact h.splice hA b d rb re
  | insertPayload d i => exact h.splice hA b d _ _
  | appendPayload d => exact h.append hA b d
  | appendByte v => exact h.appendByte hA b v
  | setPayloadByte i v => exact hA.setByteBytes ..

theorem execAllBytes (hA : A.Agree A') (cs : List (SxCall .s7)) (b : Buf .bytes) :
    (SxCall.execAllBytesU A cs b).Agree (SxCall.execAllBytesU A' cs b) := by
  induction cs generalizing b with
  | nil => exact .rfl' _
  | cons c cs ih => exact .bind (hA.execBytes c b) ih

theorem itExecAll (hA : A.Agree A') (k : Sx) (b : Buf .ump) (cs : List ItCall) (it : Sx.It) :
    (ItCall.execAllU A k b cs it).Agree (ItCall.execAllU A' k b cs it) := by
  induction cs generalizing it with
  | nil => exact .rfl' _
  | cons c cs ih =>
    refine .bind ?_ fun x => .bind (ih _) fun _ => .rfl' _
    cases c
    · exact hA.next ..
    · exact hA.nth ..

theorem itExecBytes (hA : A.Agree A') (cs : List ItCall) (it : Sxb.It) :
    (ItCall.execBytesU A cs it).Agree (ItCall.execBytesU A' cs it) := by
  induction cs generalizing it with
  | nil => exact .rfl' _
  | cons c cs ih =>
    refine .bind ?_ fun x => .bind (ih _) fun _ => .rfl' _
    cases c
    · exact hA.nextBytes ..
    · exact hA.nthBytes ..

theorem itPacketExecAll (hA : A.Agree A') (dbg withLen : Bool) (k : Sx) (p : Buf .ump)
    (cs : List ItCall) (i : Nat) :
    (ItCall.packetExecAllU A dbg withLen k p cs i).Agree
      (ItCall.packetExecAllU A' dbg withLen k p cs i) := by
  induction cs generalizing i with
  | nil => exact .rfl' _
  | cons c cs ih =>
    refine .bind ?_ fun x => .bind (hA.packetLen ..) fun _ => .bind (ih _) fun _ => .rfl' _
    cases c
    · exact hA.packetNext ..
    · exact hA.packetNth ..

end Arith.Agree

end Midi2
