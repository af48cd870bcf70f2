import Verif.Lemmas.Modes
import Verif.Spec.Usize

/-! # The model with unbounded numbers is the one of the other files -/

namespace Midi2

namespace Arith

theorem unbounded_add (a b : Nat) : unbounded.add a b = .ok (a + b) := rfl
theorem unbounded_mul (a b : Nat) : unbounded.mul a b = .ok (a * b) := rfl
theorem unbounded_sub (a b : Nat) : unbounded.sub a b = usub a b := rfl
theorem unbounded_add8 (a b : Nat) : unbounded.add8 a b = .ok (a + b) := rfl
theorem unbounded_sub8 (a b : Nat) : unbounded.sub8 a b = usub a b := rfl

end Arith

namespace SxOps

variable {S β : Type} (ops : SxOps S β)

theorem fillU_unbounded (begin est : Nat) (l : List β) (s : S) (w : Nat) :
    ops.fillU .unbounded begin est l s w = ops.fill begin est l s w := by
  induction l generalizing s w with
  | nil => rfl
  | cons v rest ih =>
    simp only [fillU, fill, Arith.unbounded_add, Res.ok_bind, ih]

theorem firstGrowU_unbounded (s : S) (a b c d : Nat) :
    ops.firstGrowU .unbounded s a b c d = ops.firstGrow s a b c d := rfl

theorem growMoreU_unbounded (s : S) (a b c d e : Nat) :
    ops.growMoreU .unbounded s a b c d e = ops.growMore s a b c d e := rfl

theorem mainLoopU_unbounded (begin initial sp : Nat) (fuel : Nat) (s : S) (l : List β)
    (w e a t : Nat) :
    ops.mainLoopU .unbounded begin initial sp fuel s l w e a t =
      ops.mainLoop begin initial sp fuel s l w e a t := by
  induction fuel generalizing s l w e a t with
  | zero => rfl
  | succ fuel ih =>
    simp only [mainLoopU, mainLoop, Arith.unbounded_add, Arith.unbounded_mul, Res.ok_bind,
      fillU_unbounded, growMoreU_unbounded, ih]

theorem trySpliceDetailU_unbounded (s : S) (d : Src β) (rb re : Bound) :
    ops.trySpliceDetailU .unbounded s d rb re = ops.trySpliceDetail s d rb re := by
  have h1 : rb.spliceBeginU .unbounded = .ok rb.spliceBegin := by cases rb <;> rfl
  have h2 : ∀ n, re.spliceEndU .unbounded n = .ok (re.spliceEnd n) := by intro n; cases re <;> rfl
  simp only [trySpliceDetailU, trySpliceDetail, h1, h2, Res.ok_bind, firstGrowU_unbounded,
    mainLoopU_unbounded, Arith.unbounded_sub, Arith.unbounded_add]
  rfl

theorem trySpliceU_unbounded (s : S) (d : Src β) (rb re : Bound) :
    ops.trySpliceU .unbounded s d rb re = ops.trySplice s d rb re := by
  simp only [trySpliceU, trySplice, trySpliceDetailU_unbounded]
  rfl

theorem spliceU_unbounded (s : S) (d : Src β) (rb re : Bound) :
    ops.spliceU .unbounded s d rb re = ops.splice s d rb re := by
  simp only [spliceU, splice, trySpliceDetailU_unbounded]
  rfl

theorem setPayloadU_unbounded (s : S) (d : Src β) :
    ops.setPayloadU .unbounded s d = ops.setPayload s d := by
  simp only [setPayloadU, setPayload, insertU, insert, spliceU_unbounded]
  rfl

theorem trySetPayloadU_unbounded (s : S) (d : Src β) :
    ops.trySetPayloadU .unbounded s d = ops.trySetPayload s d := by
  simp only [trySetPayloadU, trySetPayload, tryInsertU, tryInsert, trySpliceU_unbounded]
  rfl

end SxOps

namespace Sx

variable (k : Sx)

theorem packetSizeU_unbounded (w : BitVec 32) :
    k.packetSizeU .unbounded w = k.packetSize w := by
  cases k
  · simp [packetSizeU, packetSize, usub, bias]
  · rfl

theorem packetSize8U_unbounded (w : BitVec 32) :
    k.packetSize8U .unbounded w = k.packetSize w := by
  cases k
  · simp [packetSize8U, packetSize, usub, bias]
  · rfl

theorem dataU_unbounded (b : Buf .ump) : k.dataU .unbounded b = k.data b := by
  unfold dataU data sizeU size
  cases (chunksExact k.stride b).findIdx? (fun p => isLast (head0 p)) <;> rfl

theorem sumSizesU_unbounded (l : List (Buf .ump)) (acc : Nat) :
    k.sumSizesU .unbounded acc l = (k.sumSizes l).bind fun n => .ok (acc + n) := by
  induction l generalizing acc with
  | nil => rfl
  | cons p ps ih =>
    simp only [sumSizesU, sumSizes, packetSizeU_unbounded, Arith.unbounded_add, Res.ok_bind, ih]
    cases k.packetSize (head0 p) with
    | ok n =>
      cases k.sumSizes ps with
      | ok m => simp [bind, Res.bind, pure, Nat.add_assoc]
      | err e => rfl
      | panic => rfl
    | err e => rfl
    | panic => rfl

theorem payloadU_unbounded (b : Buf .ump) : k.payloadU .unbounded b = k.payload b := by
  simp only [payloadU, payload, dataU_unbounded, sumSizesU_unbounded]
  congr 1
  funext d
  cases k.sumSizes (chunksExact k.stride d) with
  | ok n => simp [bind, Res.bind, pure]
  | err e => rfl
  | panic => rfl

theorem payloadSizeU_unbounded : k.payloadSizeU .unbounded = k.payloadSize := by
  funext b
  simp only [payloadSizeU, payloadSize, payloadU_unbounded]

theorem curSizeU_unbounded (b : Buf .ump) (p : Nat) :
    k.curSizeU .unbounded b p = k.curSize b p := by
  simp only [curSizeU, curSize, Arith.unbounded_add, Arith.unbounded_mul, Res.ok_bind,
    packetSizeU_unbounded, Nat.le_add_right, true_and]

theorem skipEmptyU_unbounded (b : Buf .ump) (fuel : Nat) (it : It) :
    k.skipEmptyU .unbounded b fuel it = k.skipEmpty b fuel it := by
  induction fuel generalizing it with
  | zero => rfl
  | succ fuel ih =>
    simp only [skipEmptyU, skipEmpty, curSizeU_unbounded, Arith.unbounded_add, Res.ok_bind, ih]

theorem valueU_unbounded (b : Buf .ump) (it : It) :
    k.valueU .unbounded b it = k.value b it := rfl

theorem advanceU_unbounded (b : Buf .ump) (it : It) :
    k.advanceU .unbounded b it = k.advance b it := by
  simp only [advanceU, advance, curSizeU_unbounded, Arith.unbounded_add, Res.ok_bind,
    skipEmptyU_unbounded]
  congr 1
  funext sz
  cases k with
  | s7 => dsimp only; split <;> rfl
  | s8 => dsimp only; split <;> rfl

theorem nextU_unbounded (b : Buf .ump) (it : It) :
    k.nextU .unbounded b it = k.next b it := by
  simp only [nextU, next, skipEmptyU_unbounded, valueU_unbounded, advanceU_unbounded]

theorem nthLoopU_unbounded (l : List (Buf .ump)) (rel n : Nat) (it : It) :
    k.nthLoopU .unbounded l rel n it = k.nthLoop l rel n it := by
  induction l generalizing rel n it with
  | nil => rfl
  | cons p ps ih =>
    simp only [nthLoopU, nthLoop, packetSizeU_unbounded, Arith.unbounded_add, Arith.unbounded_sub,
      Res.ok_bind, ih]

theorem nthU_unbounded (b : Buf .ump) (n : Nat) (it : It) :
    k.nthU .unbounded b n it = k.nth b n it := by
  simp only [nthU, doNthU, nth, packetSizeU_unbounded, Arith.unbounded_add, Arith.unbounded_sub,
    Arith.unbounded_mul, Res.ok_bind, nthLoopU_unbounded, nextU_unbounded]
  by_cases h : b.length < it.packet * k.stride
  · simp only [if_pos h]
    rfl
  · simp only [if_neg h]
    cases chunksExact k.stride (b.drop (it.packet * k.stride)) with
    | nil => rfl
    | cons p ps =>
      dsimp only
      cases k.packetSize (head0 p) with
      | err e => rfl
      | panic => rfl
      | ok sz =>
        simp only [Res.ok_bind]
        cases usub sz it.idx with
        | err e => rfl
        | panic => rfl
        | ok r =>
          simp only [Res.ok_bind]
          by_cases hn : n < r
          · simp only [if_pos hn]
            cases usub it.cache n <;> rfl
          · simp only [if_neg hn]
            cases usub it.cache r with
            | err e => rfl
            | panic => rfl
            | ok c =>
              simp only [Res.ok_bind]
              cases k.nthLoop ps 1 (n - r) ⟨it.packet, it.idx, c⟩ with
              | err e => rfl
              | panic => rfl
              | ok x => obtain ⟨x, _ | _⟩ := x <;> rfl

theorem collectU_unbounded (b : Buf .ump) (fuel : Nat) (it : It) :
    k.collectU .unbounded b fuel it = k.collect b fuel it := by
  induction fuel generalizing it with
  | zero => rfl
  | succ fuel ih =>
    simp only [collectU, collect, nextU_unbounded, ih]
    rfl

theorem payloadListU_unbounded (b : Buf .ump) :
    k.payloadListU .unbounded b = k.payloadList b := by
  simp only [payloadListU, payloadList, payloadU_unbounded, collectU_unbounded]

theorem bufferSizeU_unbounded (n : Nat) :
    k.bufferSizeU .unbounded n = .ok (k.bufferSize n) := by
  unfold bufferSizeU bufferSize
  split
  · split
    · rfl
    · cases k <;> rfl
  · rfl

theorem sizeNibbleU_unbounded (n : Nat) : k.sizeNibbleU .unbounded n = k.sizeNibble n := by
  cases k <;> rfl

theorem firstHeadU_unbounded (n : Nat) (only : Bool) (w : BitVec 32) :
    k.firstHeadU .unbounded n only w = k.firstHead n only w := by
  simp only [firstHeadU, firstHead, sizeNibbleU_unbounded]

theorem restPacketsU_unbounded (n : Nat) (g : BitVec 4) (l : List (Buf .ump)) :
    k.restPacketsU .unbounded n g l = k.restPackets n g l := by
  induction l with
  | nil => rfl
  | cons p ps ih =>
    cases ps with
    | nil => simp only [restPacketsU, restPackets, sizeNibbleU_unbounded]
    | cons q ps => simp only [restPacketsU, restPackets, ih]

theorem packetsU_unbounded (n : Nat) (l : List (Buf .ump)) :
    k.packetsU .unbounded n l = k.packets n l := by
  cases l with
  | nil => rfl
  | cons p ps => simp only [packetsU, packets, firstHeadU_unbounded, restPacketsU_unbounded]

theorem tryResizeU_unbounded (m : Mem) : k.tryResizeU .unbounded m = k.tryResize m := by
  funext b n
  simp only [tryResizeU, tryResize, bufferSizeU_unbounded, Res.ok_bind, packetsU_unbounded]
  cases (m.resize b (k.bufferSize n)).2 <;> rfl

theorem writeDatumU_unbounded : k.writeDatumU .unbounded = k.writeDatum := rfl

theorem addrU_unbounded (i : Nat) : k.addrU .unbounded i = .ok (k.addr i) := rfl

theorem moveUpU_unbounded (d tail n : Nat) (b : Buf .ump) :
    k.moveUpU .unbounded d tail n b = (List.range' tail n).reverse.foldlM
      (fun b i => copyOctet b (k.addr i) (k.addr (i + d))) b := by
  induction n generalizing b with
  | zero => rfl
  | succ n ih =>
    rw [List.range'_concat]
    simp only [moveUpU, Arith.unbounded_add, addrU_unbounded, Res.ok_bind, Nat.one_mul,
      List.reverse_append, List.reverse_cons, List.reverse_nil, List.nil_append,
      List.singleton_append, List.foldlM_cons, ih]

theorem moveDownU_unbounded (d i n : Nat) (b : Buf .ump) (h : d ≤ i) :
    k.moveDownU .unbounded d i n b = (List.range' i n).foldlM
      (fun b i => copyOctet b (k.addr i) (k.addr (i - d))) b := by
  induction n generalizing b i with
  | zero => rfl
  | succ n ih =>
    have hs : usub i d = .ok (i - d) := if_pos h
    simp only [moveDownU, Arith.unbounded_sub, addrU_unbounded, Res.ok_bind, hs, List.range'_succ,
      List.foldlM_cons]
    congr 1
    funext b
    exact ih (i + 1) b (by omega)

theorem moveTailU_unbounded (dbg : Bool) : k.moveTailU .unbounded dbg = k.moveTail dbg := by
  funext b tail to
  simp only [moveTailU, moveTail, payloadSizeU_unbounded, Arith.unbounded_sub, moveUpU_unbounded]
  congr 1
  funext _
  congr 1
  funext ps
  split
  · rfl
  · split
    · exact k.moveDownU_unbounded _ _ _ _ (by omega)
    · rfl

theorem compactPacketU_unbounded (src : Nat) (l : List Nat) (b : Buf .ump) (dp di : Nat) :
    k.compactPacketU .unbounded src l b dp di = k.compactPacket src l b dp di := by
  induction l generalizing b dp di with
  | nil => rfl
  | cons i is ih =>
    simp only [compactPacketU, compactPacket, Arith.unbounded_add, Arith.unbounded_mul,
      Res.ok_bind, ih]

theorem compactLoopU_unbounded (fuel : Nat) (b : Buf .ump) (src dp di : Nat) :
    k.compactLoopU .unbounded fuel b src dp di = k.compactLoop fuel b src dp di := by
  induction fuel generalizing b src dp di with
  | zero => rfl
  | succ fuel ih =>
    simp only [compactLoopU, compactLoop, Arith.unbounded_add, Arith.unbounded_mul,
      Res.ok_bind, ih, packetSize8U_unbounded, compactPacketU_unbounded]

theorem compactU_unbounded : k.compactU .unbounded = k.compact := by
  funext b
  simp only [compactU, compact, payloadSizeU_unbounded, compactLoopU_unbounded,
    tryResizeU_unbounded]
  rfl

theorem setByteLoopU_unbounded (v : k.Byte) (fuel : Nat) (b : Buf .ump) (p i : Nat) :
    k.setByteLoopU .unbounded v fuel b p i = k.setByteLoop v fuel b p i := by
  induction fuel generalizing p i with
  | zero => rfl
  | succ fuel ih =>
    simp only [setByteLoopU, setByteLoop, Arith.unbounded_add, Arith.unbounded_mul,
      Res.ok_bind, ih, packetSize8U_unbounded]

theorem setByteU_unbounded (b : Buf .ump) (v : k.Byte) (i : Nat) :
    k.setByteU .unbounded b v i = k.setByte b v i := k.setByteLoopU_unbounded ..

theorem opsU_unbounded (dbg : Bool) (m : Mem) : k.opsU .unbounded dbg m = k.ops dbg m := by
  simp only [opsU, ops, compactU_unbounded, payloadSizeU_unbounded, moveTailU_unbounded,
    writeDatumU_unbounded, tryResizeU_unbounded]

end Sx

namespace Sxb

theorem payloadU_unbounded (b : Buf .bytes) : payloadU .unbounded b = payload b := by
  unfold payloadU payload data sizeU size
  cases endPos b <;> rfl

theorem nextU_unbounded (it : It) : nextU .unbounded it = next it := by
  unfold nextU next
  cases it.data[it.idx]? <;> rfl

theorem nthU_unbounded (n : Nat) (it : It) : nthU .unbounded n it = nth n it :=
  nextU_unbounded _

theorem collectU_unbounded (fuel : Nat) (it : It) :
    collectU .unbounded fuel it = collect fuel it := by
  induction fuel generalizing it with
  | zero => rfl
  | succ fuel ih =>
    simp only [collectU, collect, nextU_unbounded, ih]
    rfl

theorem payloadListU_unbounded (b : Buf .bytes) :
    payloadListU .unbounded b = payloadList b := by
  simp only [payloadListU, payloadList, payloadU_unbounded, collectU_unbounded]

theorem payloadSizeU_unbounded : payloadSizeU .unbounded = payloadSize := by
  funext b
  simp only [payloadSizeU, payloadSize, payloadU_unbounded]

theorem usub_two_one (n : Nat) : usub (n + 2) 1 = .ok (n + 2 - 1) := if_pos (by omega)

theorem resizeVecU_unbounded (b : Buf .bytes) (n : Nat) :
    resizeVecU .unbounded b n = resizeVec b n := by
  simp only [resizeVecU, resizeVec, Arith.unbounded_add, Arith.unbounded_sub, Res.ok_bind,
    payloadSizeU_unbounded, eraseEndU, usub_two_one, decide_eq_true_eq]
  congr 1
  funext old
  split <;> rfl

theorem tryResizeFixedU_unbounded (b : Buf .bytes) (n : Nat) :
    tryResizeFixedU .unbounded b n = tryResizeFixed b n := by
  simp only [tryResizeFixedU, tryResizeFixed, Arith.unbounded_add, Arith.unbounded_sub,
    Res.ok_bind, payloadSizeU_unbounded, eraseEndU]
  congr 1
  funext old
  by_cases h : (if decide (n + 2 ≤ b.length) = true then n + 2 else b.length) > old
  · simp only [h, decide_true, if_true]
  · simp only [h, decide_false, if_false, Bool.false_eq_true, Res.ok_bind]

theorem moveTailU_unbounded : moveTailU .unbounded = moveTail := by
  funext b i j
  simp only [moveTailU, moveTail, Arith.unbounded_add, Res.ok_bind, payloadSizeU_unbounded]

theorem opsU_unbounded (fixed : Bool) :
    opsU .unbounded fixed = ops (if fixed then .fixed else .vec) := by
  have h1 : ∀ b v i, writeDatumU .unbounded b v i = writeDatum b v i := fun _ _ _ => rfl
  have h2 : writeDatumU .unbounded = writeDatum := by funext b v i; rfl
  have h3 : resizeU .unbounded fixed = resize (if fixed then .fixed else .vec) := by
    funext b n
    cases fixed
    · simp only [resizeU, resizeVecU_unbounded]; rfl
    · simp only [resizeU, tryResizeFixedU_unbounded]; rfl
  simp only [opsU, ops, payloadSizeU_unbounded, moveTailU_unbounded, h2, h3]

end Sxb

namespace Packet

theorem payloadSizeU_unbounded (dbg : Bool) (k : Sx) (p : Buf .ump) :
    payloadSizeU .unbounded dbg k p = payloadSize dbg k p := by
  simp only [payloadSizeU, payloadSize, Sx.packetSizeU_unbounded, Sx.packetSize]

theorem payloadValueU_unbounded (k : Sx) (p : Buf .ump) (i : Nat) :
    payloadValueU .unbounded k p i = payloadValue k p i := rfl

theorem nextU_unbounded (dbg : Bool) (k : Sx) (p : Buf .ump) (i : Nat) :
    nextU .unbounded dbg k p i = next dbg k p i := by
  simp only [nextU, next, payloadSizeU_unbounded, payloadValueU_unbounded, Arith.unbounded_add,
    Res.ok_bind]

theorem nthU_unbounded (dbg : Bool) (k : Sx) (p : Buf .ump) (n i : Nat) :
    nthU .unbounded dbg k p n i = nth dbg k p n i := by
  simp only [nthU, nth, payloadSizeU_unbounded, payloadValueU_unbounded, Arith.unbounded_add,
    Res.ok_bind]
  congr 1
  funext sz
  split
  · rfl
  · cases k <;> rfl

theorem lenU_unbounded (dbg : Bool) (k : Sx) (p : Buf .ump) (i : Nat) :
    lenU .unbounded dbg k p i = len dbg k p i := by
  simp only [lenU, len, payloadSizeU_unbounded, Arith.unbounded_sub]

end Packet

end Midi2
