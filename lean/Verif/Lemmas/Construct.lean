import Verif.Props.Parse

/-! Writing into the front of a longer buffer; construction of fixed-size messages. -/

namespace Midi2

theorem bind_inv {α β : Type} {x : Res α} {g : α → Res β} {c : β} (h : (x >>= g) = .ok c) :
    ∃ a, x = .ok a ∧ g a = .ok c := by
  cases x with
  | ok a => exact ⟨a, rfl, h⟩
  | err e => cases h
  | panic => cases h

theorem modifyAt_inv {α : Type} {p p' : List α} {i : Nat} {f : α → α}
    (h : modifyAt p i f = .ok p') : ∃ hi : i < p.length, p' = p.set i (f p[i]) := by
  by_cases hi : i < p.length
  · rw [modifyAt_ok f hi] at h; cases h; exact ⟨hi, rfl⟩
  · unfold modifyAt at h
    rw [List.getElem?_eq_none (Nat.le_of_not_lt hi)] at h
    cases h

theorem modifyAt_len {α : Type} {p p' : List α} {i : Nat} {f : α → α}
    (h : modifyAt p i f = .ok p') : p'.length = p.length := by
  obtain ⟨_, rfl⟩ := modifyAt_inv h
  simp

/-- A successful update of the front part is the same update of the whole. -/
theorem modifyAt_app {α : Type} {p p' : List α} {i : Nat} {f : α → α}
    (h : modifyAt p i f = .ok p') (s : List α) : modifyAt (p ++ s) i f = .ok (p' ++ s) := by
  obtain ⟨hi, rfl⟩ := modifyAt_inv h
  have hi' : i < (p ++ s).length := by rw [List.length_append]; omega
  rw [modifyAt_ok f hi', List.getElem_append_left hi, List.set_append_left _ _ hi]

theorem modify2_app {α : Type} {p p' : List α} {i j : Nat} {f g : α → α}
    (h : (modifyAt p i f >>= fun b => modifyAt b j g) = .ok p') (s : List α) :
    (modifyAt (p ++ s) i f >>= fun b => modifyAt b j g) = .ok (p' ++ s) ∧
      p'.length = p.length := by
  obtain ⟨q, h1, h2⟩ := bind_inv h
  rw [modifyAt_app h1 s]
  exact ⟨modifyAt_app h2 s, by rw [modifyAt_len h2, modifyAt_len h1]⟩

theorem modify3_app {α : Type} {p p' : List α} {i j k : Nat} {f g e : α → α}
    (h : (modifyAt p i f >>= fun b => modifyAt b j g >>= fun b => modifyAt b k e) = .ok p')
    (s : List α) :
    (modifyAt (p ++ s) i f >>= fun b => modifyAt b j g >>= fun b => modifyAt b k e) =
        .ok (p' ++ s) ∧ p'.length = p.length := by
  obtain ⟨q, h1, h2⟩ := bind_inv h
  rw [modifyAt_app h1 s]
  obtain ⟨e1, e2⟩ := modify2_app h2 s
  exact ⟨e1, by rw [e2, modifyAt_len h1]⟩

theorem modify1_app {α : Type} {p p' : List α} {i : Nat} {f : α → α}
    (h : modifyAt p i f = .ok p') (s : List α) :
    modifyAt (p ++ s) i f = .ok (p' ++ s) ∧ p'.length = p.length :=
  ⟨modifyAt_app h s, modifyAt_len h⟩

theorem repWrite_app {r : Rep} {i j : Nat} {p p' : List (BitVec 32)} {v : r.Ty}
    (h : repWriteAt r i j p v = .ok p') (s : List (BitVec 32)) :
    repWriteAt r i j (p ++ s) v = .ok (p' ++ s) ∧ p'.length = p.length := by
  cases r
  all_goals first
    | exact modify1_app h s
    | exact modify2_app h s
    | exact modify3_app h s
    | (obtain ⟨q, h1, h2⟩ := bind_inv h
       obtain ⟨e1, e2⟩ := modify3_app h2 s
       refine ⟨?_, by rw [e2, modifyAt_len h1]⟩
       show (modifyAt (p ++ s) _ _ >>= _) = _
       rw [modifyAt_app h1 s]
       exact e1)

theorem umpWrite_app {r : Rep} {u : UmpSchema} {p p' : List (BitVec 32)} {v : r.Ty}
    (h : umpWrite r u p v = .ok p') (s : List (BitVec 32)) :
    umpWrite r u (p ++ s) v = .ok (p' ++ s) ∧ p'.length = p.length := by
  unfold umpWrite at h ⊢
  split at h
  · exact repWrite_app h s
  · cases h

/-- The properties whose setter walks over all packets of the buffer. -/
def Fld.walks : Fld → Bool
  | .streamStatus _ | .streamFormats => true
  | _ => false

theorem Fld.write32_app (f : Fld) (hw : f.walks = false) {p p' : List (BitVec 32)} {v : f.Ty}
    (h : f.write32 p v = .ok p') (s : List (BitVec 32)) :
    f.write32 (p ++ s) v = .ok (p' ++ s) ∧ p'.length = p.length := by
  cases f
  case streamStatus | streamFormats => cases hw
  case umpType | cvStatus | sysStatus | utilData | u20Data | flexStatus | flexBank | flexFormat =>
    exact modify1_app h s
  case uiHint | midi1Port | direction => exact modify1_app h s
  case hybrid => exact umpWrite_app h s
  case schema => exact umpWrite_app h s
  case flexNoChannel => exact modify2_app h s
  case flexOptionalChannel => cases v <;> exact modify2_app h s
  case programBank =>
    cases v
    · exact modify2_app h s
    · exact modify3_app h s
  case noteAttribute =>
    have key : ∀ z z' : List (BitVec 32), (sliceTo z 2 >>= fun _ =>
        (pure z : Res (List (BitVec 32)))) = .ok z' → z' = z ∧ (sliceTo (z ++ s) 2 >>= fun _ =>
        (pure (z ++ s) : Res (List (BitVec 32)))) = .ok (z ++ s) := by
      intro z z' hz
      unfold sliceTo at hz ⊢
      split at hz
      · next hl =>
        rw [if_pos (by rw [List.length_append]; omega)]
        cases hz; exact ⟨rfl, rfl⟩
      · cases hz
    match v, h with
    | none, h =>
      obtain ⟨q, h1, h2⟩ := bind_inv h
      obtain ⟨rfl, h3⟩ := key _ _ h2
      obtain ⟨e1, e2⟩ := modify1_app h1 s
      exact ⟨by show (modifyAt (p ++ s) _ _ >>= _) = _; rw [e1]; exact h3, e2⟩
    | some (.manufacturerSpecific d), h =>
      obtain ⟨q1, h1, h2⟩ := bind_inv h
      obtain ⟨q2, h2, h3⟩ := bind_inv h2
      obtain ⟨rfl, h4⟩ := key _ _ h3
      refine ⟨?_, by rw [modifyAt_len h2, modifyAt_len h1]⟩
      show (modifyAt (p ++ s) _ _ >>= fun b => (modifyAt b _ _ >>= _)) = _
      rw [modifyAt_app h1]
      show (modifyAt (q1 ++ s) _ _ >>= _) = _
      rw [modifyAt_app h2]; exact h4
    | some (.profileSpecific d), h =>
      obtain ⟨q1, h1, h2⟩ := bind_inv h
      obtain ⟨q2, h2, h3⟩ := bind_inv h2
      obtain ⟨rfl, h4⟩ := key _ _ h3
      refine ⟨?_, by rw [modifyAt_len h2, modifyAt_len h1]⟩
      show (modifyAt (p ++ s) _ _ >>= fun b => (modifyAt b _ _ >>= _)) = _
      rw [modifyAt_app h1]
      show (modifyAt (q1 ++ s) _ _ >>= _) = _
      rw [modifyAt_app h2]; exact h4
    | some (.pitch7_9 d), h =>
      obtain ⟨q1, h1, h2⟩ := bind_inv h
      obtain ⟨q2, h2, h3⟩ := bind_inv h2
      obtain ⟨rfl, h4⟩ := key _ _ h3
      refine ⟨?_, by rw [modifyAt_len h2, modifyAt_len h1]⟩
      show (modifyAt (p ++ s) _ _ >>= fun b => (modifyAt b _ _ >>= _)) = _
      rw [modifyAt_app h1]
      show (modifyAt (q1 ++ s) _ _ >>= _) = _
      rw [modifyAt_app h2]; exact h4
  case controller =>
    obtain ⟨⟨i, d⟩, h1, h2⟩ := bind_inv h
    obtain ⟨e1, e2⟩ := modify2_app h2 s
    refine ⟨?_, e2⟩
    show (Controller.toIndexAndData v >>= _) = _
    rw [h1]; exact e1
  case keySharpsFlats =>
    obtain ⟨i, h1, h2⟩ := bind_inv h
    obtain ⟨e1, e2⟩ := modify1_app h2 s
    refine ⟨?_, e2⟩
    show (KeySharpsFlats.intoNibble v >>= _) = _
    rw [h1]; exact e1
  case tonic u =>
    obtain ⟨i, h1, h2⟩ := bind_inv h
    obtain ⟨e1, e2⟩ := modify1_app h2 s
    refine ⟨?_, e2⟩
    show (implOf tonicImpl u >>= _) = _
    rw [h1]; exact e1
  case chordSharpsFlats u =>
    obtain ⟨i, h1, h2⟩ := bind_inv h
    obtain ⟨e1, e2⟩ := modify1_app h2 s
    refine ⟨?_, e2⟩
    show (implOf chordSharpsFlatsImpl u >>= _) = _
    rw [h1]; exact e1
  case chordType u =>
    obtain ⟨i, h1, h2⟩ := bind_inv h
    obtain ⟨e1, e2⟩ := modify1_app h2 s
    refine ⟨?_, e2⟩
    show (implOf chordTypeImpl u >>= _) = _
    rw [h1]; exact e1
  case alteration u =>
    obtain ⟨⟨i, j⟩, h1, h2⟩ := bind_inv h
    obtain ⟨e1, e2⟩ := modify1_app h2 s
    refine ⟨?_, e2⟩
    show (implOf alterationImpl u >>= _) = _
    rw [h1]; exact e1

theorem bytesWrite_app {r : Rep} {u : BytesSchema} {p p' : List (BitVec 8)} {v : r.Ty}
    (h : bytesWrite r u p v = .ok p') (s : List (BitVec 8)) :
    bytesWrite r u (p ++ s) v = .ok (p' ++ s) ∧ p'.length = p.length := by
  unfold bytesWrite at h ⊢
  split at h
  all_goals first
    | exact modify1_app h s
    | exact modify2_app h s
    | cases h

theorem Fld.write8_app (f : Fld) {p p' : List (BitVec 8)} {v : f.Ty}
    (h : f.write8 p v = .ok p') (s : List (BitVec 8)) :
    f.write8 (p ++ s) v = .ok (p' ++ s) ∧ p'.length = p.length := by
  cases f
  case umpType => cases h; exact ⟨rfl, rfl⟩
  case schema => cases h; exact ⟨rfl, rfl⟩
  case cvStatus => exact modify1_app h s
  case sysStatus => exact modify1_app h s
  case hybrid => exact bytesWrite_app h s
  all_goals cases h

/-! ## Stream messages -/

/-- The part of a buffer after the first packet does not start with another packet of
UMP stream type. -/
def Quiet (s : List (BitVec 32)) : Prop := 4 ≤ s.length → U32.nibble (head0 s) 0 ≠ 0xF#4

theorem head0_modify (g : BitVec 32 → BitVec 32) {p : List (BitVec 32)} (h : p ≠ []) :
    head0 (modifyHead0 g p) = g (head0 p) := by
  cases p with
  | nil => exact absurd rfl h
  | cons a t => rfl

theorem modifyHead0_length (g : BitVec 32 → BitVec 32) (p : List (BitVec 32)) :
    (modifyHead0 g p).length = p.length := by cases p <;> rfl

theorem onChunks_cons {α : Type} {k : Nat} (hk : 0 < k) (p s : List α) (hp : p.length = k)
    (F : List (List α) → List (List α)) (q : List α) (G : List (List α) → List (List α))
    (hF : F (p :: chunksExact k s) = q :: G (chunksExact k s)) :
    onChunksExact k (p ++ s) F = q ++ onChunksExact k s G := by
  unfold onChunksExact
  have hl : k ≤ (p ++ s).length := by rw [List.length_append]; omega
  have h1 : (p ++ s).take k = p := by rw [← hp]; simp
  have h2 : (p ++ s).drop k = s := by rw [← hp]; simp
  have h3 : (p ++ s).length / k = s.length / k + 1 := by
    rw [List.length_append, hp, Nat.add_comm, Nat.add_div_right _ hk]
  rw [chunksExact_cons hk hl, h1, h2, hF, h3, Nat.mul_succ, Nat.add_comm, ← List.drop_drop, h2]
  simp

theorem onChunks_map_length {k : Nat} (hk : 0 < k) (g : List (BitVec 32) → List (BitVec 32))
    (hg : ∀ p, (g p).length = p.length) (s : List (BitVec 32)) :
    (onChunksExact k s (List.map g)).length = s.length := by
  induction s using chunks_induction hk with
  | short s h =>
    unfold onChunksExact
    rw [chunksExact_short h, Nat.div_eq_of_lt h]; simp
  | step s h ih =>
    have e : s = s.take k ++ s.drop k := (List.take_append_drop k s).symm
    have hl : (s.take k).length = k := by rw [List.length_take]; omega
    rw [e, onChunks_cons hk _ _ hl (List.map g) (g (s.take k)) (List.map g) rfl,
      List.length_append, ih, hg, List.length_append]

theorem head0_onChunks_map (g : BitVec 32 → BitVec 32) (s : List (BitVec 32))
    (h : 4 ≤ s.length) :
    head0 (onChunksExact 4 s (List.map (modifyHead0 g))) = g (head0 s) := by
  have e : s = s.take 4 ++ s.drop 4 := (List.take_append_drop 4 s).symm
  have hl : (s.take 4).length = 4 := by rw [List.length_take]; omega
  rw [e, onChunks_cons (by omega) _ _ hl _ (modifyHead0 g (s.take 4)) (List.map (modifyHead0 g)) rfl]
  match s, h with
  | a :: b :: c :: d :: t, _ => rfl

theorem nibble_setStreamStatus (t : BitVec 16) (ht : t.toNat < 1024) (w : BitVec 32) :
    U32.nibble (setStreamStatus t w) 0 = U32.nibble w 0 := by
  rw [U32.nibble_eq, U32.nibble_eq]
  apply BitVec.eq_of_getLsbD_eq
  intro k hk
  rw [getLsbD_ext, getLsbD_ext]
  have hm : (0x03FF0000#32).getLsbD (28 + k) = false := by
    have : ∀ k : Fin 4, (0x03FF0000#32).getLsbD (28 + k.val) = false := by decide
    exact this ⟨k, hk⟩
  have ht2 : t.getLsbD (12 + k) = false := by
    rw [BitVec.getLsbD]
    apply Nat.testBit_lt_two_pow
    exact Nat.lt_of_lt_of_le ht (Nat.le_trans (by decide : 1024 ≤ 2 ^ 12)
      (Nat.pow_le_pow_right (by omega) (by omega)))
  unfold setStreamStatus
  simp only [BitVec.getLsbD_or, BitVec.getLsbD_and, BitVec.getLsbD_not,
    BitVec.getLsbD_shiftLeft, BitVec.getLsbD_setWidth]
  have e0 : (28 - 0 * 4) + k = 28 + k := by omega
  have e1 : 28 + k - 16 = 12 + k := by omega
  rw [e0, hm, e1, ht2]
  simp [hk]
  omega

/-- The status constants in use fit into ten bits. -/
def Fld.smallStatus : Fld → Bool
  | .streamStatus t => decide (t.toNat < 1024)
  | _ => true

theorem ch4 {α : Type} (a b c d : α) : chunksExact 4 [a, b, c, d] = [[a, b, c, d]] := by
  rw [chunksExact_cons (by omega) (by simp)]
  simp [chunksExact_nil]

theorem onChunks4 {α : Type} (a b c d : α) (F : List (List α) → List (List α)) :
    onChunksExact 4 [a, b, c, d] F = (F [[a, b, c, d]]).flatten := by
  unfold onChunksExact
  rw [ch4]
  simp

theorem Fld.walk_app (f : Fld) (hs : f.smallStatus = true) (hw : f.walks = true)
    {p p' : List (BitVec 32)} {v : f.Ty}
    (hp : p.length = 4) {s : List (BitVec 32)} (hq : Quiet s) (h : f.write32 p v = .ok p') :
    ∃ s', f.write32 (p ++ s) v = .ok (p' ++ s') ∧ s'.length = s.length ∧ Quiet s' ∧
      p'.length = 4 := by
  match p, hp with
  | [a, b, c, d], _ =>
  cases f <;> try cases hw
  case streamStatus t =>
    cases h
    rw [onChunks4]
    refine ⟨onChunksExact 4 s (List.map (modifyHead0 (setStreamStatus t))), ?_, ?_, ?_, rfl⟩
    · show Res.ok _ = _
      rw [onChunks_cons (k := 4) (by omega) [a, b, c, d] s rfl (List.map (modifyHead0 (setStreamStatus t)))
        (modifyHead0 (setStreamStatus t) [a, b, c, d]) (List.map (modifyHead0 (setStreamStatus t))) rfl]
      rfl
    · exact onChunks_map_length (by omega) _ (modifyHead0_length _) s
    · intro h4
      rw [onChunks_map_length (by omega) _ (modifyHead0_length _)] at h4
      rw [head0_onChunks_map _ _ h4, nibble_setStreamStatus t (of_decide_eq_true hs)]
      exact hq h4
  case streamFormats =>
    refine ⟨s, ?_, rfl, hq, ?_⟩
    · show setFormatFields _ = _
      have hq' : (chunksExact 4 s).takeWhile
          (fun p : List (BitVec 32) => U32.nibble (head0 p) 0 == 0xF#4) = [] := by
        by_cases h4 : 4 ≤ s.length
        · rw [chunksExact_cons (by omega) h4, List.takeWhile_cons, head0_take (by omega)]
          simp [hq h4]
        · rw [chunksExact_short (by omega)]; rfl
      have h : setFormatFields [a, b, c, d] = .ok p' := h
      unfold setFormatFields at h ⊢
      have e : chunksExact 4 ([a, b, c, d] ++ s) = [a, b, c, d] :: chunksExact 4 s := by
        rw [chunksExact_cons (by omega) (by simp)]; rfl
      rw [e]
      by_cases ht : U32.nibble (head0 [a, b, c, d]) 0 == 0xF#4
      · rw [ch4 a b c d] at h
        simp only [List.takeWhile_cons, ht, List.takeWhile_nil, if_true, hq', setFormatPackets]
          at h ⊢
        cases h
        congr 1
        rw [onChunks_cons (k := 4) (by omega) [a, b, c, d] s rfl _
          (modifyHead0 (fun w => U32.setCrumb w 2 0) [a, b, c, d]) id rfl, onChunks4]
        unfold onChunksExact
        simp only [id, chunksExact_flatten (show 0 < 4 by omega), List.take_append_drop]
        rfl
      · rw [ch4 a b c d] at h
        simp [List.takeWhile_cons, ht, setFormatPackets] at h
    · have h : setFormatFields [a, b, c, d] = .ok p' := h
      unfold setFormatFields at h
      rw [ch4 a b c d] at h
      by_cases ht : U32.nibble (head0 [a, b, c, d]) 0 == 0xF#4
      · simp only [List.takeWhile_cons, ht, List.takeWhile_nil, if_true, setFormatPackets] at h
        cases h
        rw [onChunks4]
        rfl
      · simp [List.takeWhile_cons, ht, setFormatPackets] at h

/-- Initialising the front of a longer buffer. -/
theorem initProps_app (ps : List (String × Fld)) (hs : ∀ q ∈ ps, q.2.smallStatus = true)
    {p p' s : List (BitVec 32)}
    (hw : (∃ q ∈ ps, q.2.walks = true) → p.length = 4 ∧ Quiet s)
    (h : initProps .ump ps p = .ok p') :
    ∃ s', initProps .ump ps (p ++ s) = .ok (p' ++ s') ∧ s'.length = s.length ∧
      p'.length = p.length ∧ ((∀ q ∈ ps, q.2.walks = false) → s' = s) := by
  induction ps generalizing p s with
  | nil => cases h; exact ⟨s, rfl, rfl, rfl, fun _ => rfl⟩
  | cons x ps ih =>
    obtain ⟨n, f⟩ := x
    obtain ⟨q, h1, h2⟩ := bind_inv h
    have h1 : f.write32 p f.default = .ok q := h1
    have hs' : ∀ q ∈ ps, q.2.smallStatus = true := fun q hq => hs q (List.mem_cons_of_mem _ hq)
    cases e : f.walks with
    | false =>
      obtain ⟨e1, e2⟩ := Fld.write32_app f e h1 s
      obtain ⟨s', i1, i2, i3, i4⟩ := ih (s := s) hs' (fun ⟨q', hq', hqw⟩ => by
        rw [e2]; exact hw ⟨q', List.mem_cons_of_mem _ hq', hqw⟩) h2
      refine ⟨s', ?_, i2, by rw [i3, e2], fun hall => i4 fun q hq => hall q
        (List.mem_cons_of_mem _ hq)⟩
      show (f.write32 (p ++ s) f.default >>= _) = _
      rw [e1]; exact i1
    | true =>
      obtain ⟨hp, hq⟩ := hw ⟨(n, f), List.mem_cons_self, e⟩
      obtain ⟨s1, e1, e2, e3, e4⟩ := Fld.walk_app f (hs _ List.mem_cons_self) e hp hq h1
      obtain ⟨s', i1, i2, i3, i4⟩ := ih (s := s1) hs' (fun _ => ⟨e4, e3⟩) h2
      refine ⟨s', ?_, by rw [i2, e2], by rw [i3, e4, hp], fun hall => ?_⟩
      · show (f.write32 (p ++ s) f.default >>= _) = _
        rw [e1]; exact i1
      · have h0 := hall (n, f) List.mem_cons_self
        have h0 : f.walks = false := h0
        rw [e] at h0; cases h0

theorem initProps_app8 (ps : List (String × Fld)) {p p' : List (BitVec 8)}
    (h : initProps .bytes ps p = .ok p') (s : List (BitVec 8)) :
    initProps .bytes ps (p ++ s) = .ok (p' ++ s) ∧ p'.length = p.length := by
  induction ps generalizing p with
  | nil => cases h; exact ⟨rfl, rfl⟩
  | cons x ps ih =>
    obtain ⟨n, f⟩ := x
    obtain ⟨q, h1, h2⟩ := bind_inv h
    obtain ⟨e1, e2⟩ := Fld.write8_app f h1 s
    obtain ⟨i1, i2⟩ := ih h2
    refine ⟨?_, by rw [i2, e2]⟩
    show (f.write8 (p ++ s) f.default >>= _) = _
    rw [e1]; exact i1

/-! ## Tables -/

instance Fld.tyDec (f : Fld) : DecidableEq f.Ty := by
  cases f
  case hybrid r _ _ => cases r <;> (unfold Fld.Ty Rep.Ty; infer_instance)
  case schema r _ => cases r <;> (unfold Fld.Ty Rep.Ty; infer_instance)
  all_goals (unfold Fld.Ty; infer_instance)

/-- A freshly initialised exact-size buffer is accepted, has the right length and all its
properties read as their default. -/
def MsgDesc.freshOk (d : MsgDesc) (m : Fmt) : Bool :=
  match d.newVec m with
  | .ok b => decide (d.tryFrom m b = .ok b) && decide (b.length = d.minSize m) &&
      d.props.all fun p => !p.2.accessible m || decide (p.2.read m b = .ok p.2.default)
  | _ => false

theorem table_fresh_ump : Msg.all.all (fun d =>
    d.name == "ump_stream::FunctionBlockDiscovery" || d.freshOk .ump) = true := by decide +kernel
theorem table_fresh_bytes : Msg.hybridAll.all (fun d =>
    d.name == "system_common::SongPositionPointer" || d.freshOk .bytes) = true := by
  decide +kernel

theorem table_walks : Msg.all.all (fun d => d.props.all fun p => !p.2.walks || d.umpSize == 4 ||
    d.name == "ump_stream::FunctionBlockDiscovery") = true := by decide +kernel
theorem table_smallStatus : Msg.all.all (fun d => d.props.all fun p => p.2.smallStatus) = true := by
  decide +kernel

end Midi2
