import Verif.Spec.Blocks
import Verif.Lemmas.Discovery

/-!
# Lemmas for function block discovery
-/

namespace Midi2.Discovery

open Rx

/-- The word of a request. -/
def reqWord (n : BitVec 8) (i nm : Bool) : BitVec 32 :=
  0xF0100000 ||| (n.setWidth 32 <<< 8) ||| (if i then 2 else 0) ||| (if nm then 1 else 0)
theorem askBlocks_table : ∀ n : Fin 256, ∀ i nm : Bool,
    askBlocks ⟨BitVec.ofNat 8 n.val, i, nm⟩ =
      .ok (.fixed Msg.streamFunctionBlockDiscovery, [reqWord (BitVec.ofNat 8 n.val) i nm]) ∧
    UmpMessage.tryFrom [reqWord (BitVec.ofNat 8 n.val) i nm] =
      .ok (.fixed Msg.streamFunctionBlockDiscovery, [reqWord (BitVec.ofNat 8 n.val) i nm]) ∧
    ((Fld.schema .u8 ⟨0x0000FF00, 0, 0, 0⟩).read .ump [reqWord (BitVec.ofNat 8 n.val) i nm, 0, 0, 0] :
      Res (BitVec 8)) = .ok (BitVec.ofNat 8 n.val) ∧
    ((Fld.schema .bool ⟨0x00000002, 0, 0, 0⟩).read .ump [reqWord (BitVec.ofNat 8 n.val) i nm, 0, 0, 0] :
      Res Bool) = .ok i ∧
    ((Fld.schema .bool ⟨0x00000001, 0, 0, 0⟩).read .ump [reqWord (BitVec.ofNat 8 n.val) i nm, 0, 0, 0] :
      Res Bool) = .ok nm := by decide +kernel

theorem askBlocks_ok (r : BlockRequest) :
    ∃ w, askBlocks r = .ok (.fixed Msg.streamFunctionBlockDiscovery, [w]) ∧
      Whole (.fixed Msg.streamFunctionBlockDiscovery, [w]) ∧
      (Fld.schema .u8 ⟨0x0000FF00, 0, 0, 0⟩).read .ump [w, 0, 0, 0] = .ok r.number ∧
      (Fld.schema .bool ⟨0x00000002, 0, 0, 0⟩).read .ump [w, 0, 0, 0] = .ok r.info ∧
      (Fld.schema .bool ⟨0x00000001, 0, 0, 0⟩).read .ump [w, 0, 0, 0] = .ok r.name := by
  obtain ⟨n, i, nm⟩ := r
  have h := askBlocks_table ⟨n.toNat, n.isLt⟩ i nm
  have e : BitVec.ofNat 8 n.toNat = n := BitVec.eq_of_toNat_eq (by simp)
  simp only [e] at h
  exact ⟨_, h.1, ⟨h.2.1, rfl⟩, h.2.2⟩

theorem blockInfo_ok (i : BlockInfo) :
    ∃ x, make Msg.streamFunctionBlockInfo i.calls = .ok (.fixed Msg.streamFunctionBlockInfo, x) ∧
      Whole (.fixed Msg.streamFunctionBlockInfo, x) ∧ readBlockInfo x = .ok i := by
  obtain ⟨x, h1, h2, h3⟩ := make_ok (d := Msg.streamFunctionBlockInfo)
    (by simp [Msg.all, Msg.streamAll]) (by decide) i.calls
    (by
      intro c hc
      simp only [BlockInfo.calls, List.mem_cons, List.not_mem_nil, or_false] at hc
      rcases hc with rfl | rfl | rfl | rfl | rfl | rfl | rfl | rfl | rfl <;>
        exact ⟨by simp [Msg.streamFunctionBlockInfo], rfl, rfl⟩)
  have hn : (i.calls.map SetCall.name).Nodup := by simp [BlockInfo.calls]
  have n := fun j hj => holding_nth h3 hn j hj
  refine ⟨x, h1, h2, ?_⟩
  have l : i.calls.length = 9 := rfl
  have n0 : (Fld.schema .bool ⟨0x00008000, 0, 0, 0⟩).read .ump x = .ok i.active := n 0 (by omega)
  have n1 : (Fld.schema .u7 ⟨0x00007F00, 0, 0, 0⟩).read .ump x = .ok i.number := n 1 (by omega)
  have n2 : (Fld.schema .u4 ⟨0, 0x0F000000, 0, 0⟩).read .ump x = .ok i.firstGroup := n 2 (by omega)
  have n3 : (Fld.schema .u8 ⟨0, 0x00FF0000, 0, 0⟩).read .ump x = .ok i.groups := n 3 (by omega)
  have n4 : (Fld.schema .u8 ⟨0, 0x0000FF00, 0, 0⟩).read .ump x = .ok i.ciVersion := n 4 (by omega)
  have n5 : (Fld.schema .u8 ⟨0, 0x000000FF, 0, 0⟩).read .ump x = .ok i.ciStreams := n 5 (by omega)
  have n6 : Fld.uiHint.read .ump x = .ok i.uiHint := n 6 (by omega)
  have n7 : Fld.midi1Port.read .ump x = .ok i.midi1Port := n 7 (by omega)
  have n8 : Fld.direction.read .ump x = .ok i.direction := n 8 (by omega)
  unfold readBlockInfo
  rw [n0, Res.ok_bind, n1, Res.ok_bind, n2, Res.ok_bind, n3, Res.ok_bind, n4, Res.ok_bind, n5,
    Res.ok_bind, n6, Res.ok_bind, n7, Res.ok_bind, n8]
  rfl

theorem makeName_ok (b : Block) (hs : NulFree b.name) :
    ∃ x, makeName b = .ok (.streamText .functionBlockName, x) ∧
      Whole (.streamText .functionBlockName, x) ∧
      StreamText.block x = .ok (b.info.number.setWidth 8) ∧
      StreamText.functionBlockName.text x = .ok b.name := by
  obtain ⟨y, x, h1, h2, h3, h4, h5, h6⟩ := built_stream_text .functionBlockName (by decide)
    [.setText b.name, .setBlock (b.info.number.setWidth 8)] (.inl rfl) hs fun _ _ _ => rfl
  refine ⟨x, ?_, ⟨h4, h1⟩, h5 rfl, h6⟩
  unfold makeName
  cases hv : StreamText.functionBlockName.newVec with
  | ok a =>
    rw [hv, Res.ok_bind] at h2
    have h2 : (StreamText.functionBlockName.setText a b.name >>= fun z =>
      .ok (StreamText.setBlock z (b.info.number.setWidth 8))) = .ok y := h2
    rw [Res.ok_bind]
    cases hw : StreamText.functionBlockName.setText a b.name with
    | ok b' =>
      rw [hw] at h2
      cases h2
      show (StreamText.data _ >>= _) = _
      rw [h3]; rfl
    | err e => rw [hw] at h2; cases h2
    | panic => rw [hw] at h2; cases h2
  | err e => rw [hv] at h2; cases h2
  | panic => rw [hv] at h2; cases h2

theorem learn_block {x : Buf .ump} {i : BlockInfo} (h : readBlockInfo x = .ok i) (k : BlocksTold)
    (ms : List (UmpKind × Buf .ump)) :
    learnAllB k ((.fixed Msg.streamFunctionBlockInfo, x) :: ms) =
      learnAllB { k with infos := k.infos ++ [i] } ms := by
  rw [learnAllB, learnB, if_pos rfl, h]; rfl

theorem learn_block_name {x : Buf .ump} {n : BitVec 8} {s : String} (hn : StreamText.block x = .ok n)
    (h : StreamText.functionBlockName.text x = .ok s) (k : BlocksTold)
    (ms : List (UmpKind × Buf .ump)) :
    learnAllB k ((.streamText .functionBlockName, x) :: ms) =
      learnAllB { k with names := k.names ++ [(n, s)] } ms := by
  rw [learnAllB, learnB, if_neg (by dsimp only; decide), if_pos rfl, hn, Res.ok_bind, h]; rfl

/-- What the answers to a request are, block by block. -/
theorem answerBlocks_ok (r : BlockRequest) : ∀ {bs : List Block}, (∀ b ∈ bs, NulFree b.name) →
    ∃ as, answerBlocks r bs = .ok as ∧ (∀ m ∈ as, Whole m ∧ inPackets m = m) ∧
      ∀ k ms, learnAllB k (as ++ ms) = learnAllB
        ⟨k.infos ++ (blocksTold bs r).infos, k.names ++ (blocksTold bs r).names⟩ ms
  | [], _ => by
    refine ⟨[], rfl, fun _ h => (by cases h), fun k ms => ?_⟩
    have e : blocksTold [] r = ⟨[], []⟩ := by unfold blocksTold; simp
    rw [e, List.append_nil, List.append_nil]; rfl
  | b :: bs, h => by
    obtain ⟨x1, a1, w1, l1⟩ := blockInfo_ok b.info
    obtain ⟨x2, a2, w2, n2, l2⟩ := makeName_ok b (h b List.mem_cons_self)
    obtain ⟨as, h1, h2, h3⟩ := answerBlocks_ok r (bs := bs) fun c hc => h c (List.mem_cons_of_mem _ hc)
    refine ⟨(if r.wants b && r.info then [(.fixed Msg.streamFunctionBlockInfo, x1)] else []) ++
      (if r.wants b && r.name then [(.streamText .functionBlockName, x2)] else []) ++ as, ?_, ?_, ?_⟩
    · rw [answerBlocks, ifAsked_ok a1, Res.ok_bind, ifAsked_ok a2, Res.ok_bind, h1]; rfl
    · intro m hm
      have one : ∀ {a : Bool} {y : UmpKind × Buf .ump}, Whole y → inPackets y = y →
          m ∈ (if a then [y] else []) → Whole m ∧ inPackets m = m := by
        intro a y h1 h2 h
        cases a
        · cases h
        · rcases List.mem_cons.mp h with rfl | h
          · exact ⟨h1, h2⟩
          · cases h
      rcases List.mem_append.mp hm with hm | hm
      · rcases List.mem_append.mp hm with hm | hm
        · exact one w1 (if_neg (by dsimp only; decide)) hm
        · exact one w2 (if_neg (by dsimp only; decide)) hm
      · exact h2 m hm
    · intro k ms
      obtain ⟨rn, ri, rm⟩ := r
      cases hw : BlockRequest.wants ⟨rn, ri, rm⟩ b <;> cases ri <;> cases rm <;>
        simp [h3, learn_block l1, learn_block_name n2 l2, blocksTold, hw]

theorem answersB_append {bl : List Block} : ∀ {a b r s : List (UmpKind × Buf .ump)},
    answersB bl a = .ok r → answersB bl b = .ok s → answersB bl (a ++ b) = .ok (r ++ s)
  | [], b, r, s, h1, h2 => by cases h1; exact h2
  | m :: a, b, r, s, h1, h2 => by
    rw [answersB] at h1
    cases hm : answerB bl m with
    | ok x =>
      rw [hm, Res.ok_bind] at h1
      cases ha : answersB bl a with
      | ok y =>
        rw [ha] at h1
        cases h1
        rw [List.cons_append, answersB, hm, Res.ok_bind, answersB_append ha h2, List.append_assoc]
        rfl
      | err e => rw [ha] at h1; cases h1
      | panic => rw [ha] at h1; cases h1
    | err e => rw [hm] at h1; cases h1
    | panic => rw [hm] at h1; cases h1

theorem answersB_other {bl : List Block} : ∀ {a : List (UmpKind × Buf .ump)},
    (∀ m ∈ a, m.1 ≠ .fixed Msg.streamFunctionBlockDiscovery) → answersB bl a = .ok []
  | [], _ => rfl
  | m :: a, h => by
    rw [answersB, answerB, if_neg (h m List.mem_cons_self), Res.ok_bind,
      answersB_other fun m hm => h m (List.mem_cons_of_mem _ hm)]
    rfl

theorem learnB_other {k : BlocksTold} : ∀ {a b : List (UmpKind × Buf .ump)},
    (∀ m ∈ a, m.1 ≠ .fixed Msg.streamFunctionBlockInfo ∧ m.1 ≠ .streamText .functionBlockName) →
    learnAllB k (a ++ b) = learnAllB k b
  | [], _, _ => rfl
  | m :: a, b, h => by
    obtain ⟨h1, h2⟩ := h m List.mem_cons_self
    rw [List.cons_append, learnAllB, learnB, if_neg h1, if_neg h2, Res.ok_bind,
      learnB_other fun m hm => h m (List.mem_cons_of_mem _ hm)]

end Midi2.Discovery
