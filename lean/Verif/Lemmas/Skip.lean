import Verif.Spec.Skip
import Verif.Lemmas.Pieces
import Verif.Lemmas.Reassembly

/-! # Lemmas: packets the library does not know -/

namespace Midi2

theorem standardWords_pos (n : Nat) : 0 < standardWords n := by
  unfold standardWords; split <;> decide

theorem Frame.pos {x : List (BitVec 32)} (F : Frame x) : 0 < x.length := by
  obtain ⟨w, t, rfl, -⟩ := F
  exact Nat.succ_pos _

theorem Frame.unique {x y c d : List (BitVec 32)} (F : Frame x) (G : Frame y) (h : x ++ c = y ++ d) :
    x = y ∧ c = d := by
  obtain ⟨w, t, rfl, hl⟩ := F
  obtain ⟨v, u, rfl, hm⟩ := G
  have e : w = v := (List.cons.inj h).1
  subst e
  exact List.append_inj h (hl.trans hm.symm)

theorem frontArrived_frame {b : List (BitVec 32)} :
    frontArrived b = true ↔ ∃ x, Frame x ∧ x <+: b := by
  constructor
  · intro h
    cases b with
    | nil => cases h
    | cons w t =>
      have h' : standardWords (field w 0 4) ≤ t.length + 1 := of_decide_eq_true h
      obtain ⟨n, hn⟩ : ∃ n, standardWords (field w 0 4) = n + 1 :=
        ⟨_, (Nat.succ_pred_eq_of_pos (standardWords_pos _)).symm⟩
      refine ⟨w :: t.take n, ⟨w, _, rfl, ?_⟩, ?_⟩
      · rw [List.length_cons, List.length_take, hn]; omega
      · exact ⟨t.drop n, by rw [List.cons_append, List.take_append_drop]⟩
  · rintro ⟨x, ⟨w, t, rfl, hl⟩, c, rfl⟩
    show decide (_ ≤ (t ++ c).length + 1) = true
    rw [← hl, decide_eq_true_iff, List.length_append, List.length_cons]
    omega

theorem framesOf_exists : ∀ (n : Nat) (b : List (BitVec 32)), b.length ≤ n →
    ∃ xs rest, FramesOf b xs rest
  | n, b, hn => by
    by_cases h : ∃ x, Frame x ∧ x <+: b
    · obtain ⟨x, F, c, rfl⟩ := h
      have := F.pos
      rw [List.length_append] at hn
      match n, hn with
      | 0, hn => omega
      | n + 1, hn =>
        obtain ⟨xs, rest, R⟩ := framesOf_exists n c (by omega)
        refine ⟨x :: xs, rest, ?_, fun y hy => ?_, R.stop⟩
        · rw [List.flatten_cons, List.append_assoc, ← R.words]
        · rcases List.mem_cons.mp hy with rfl | hy
          · exact F
          · exact R.frames y hy
    · exact ⟨[], b, rfl, (fun q hq => nomatch hq), fun x F hx => h ⟨x, F, hx⟩⟩

theorem FramesOf.unique {b : List (BitVec 32)} : ∀ {xs : List (List (BitVec 32))}
    {rest xs' rest'}, FramesOf b xs rest → FramesOf b xs' rest' → xs = xs' ∧ rest = rest' := by
  intro xs
  induction xs generalizing b with
  | nil =>
    intro rest xs' rest' R R'
    cases xs' with
    | nil => exact ⟨rfl, R.words.symm.trans R'.words⟩
    | cons q xs' =>
      refine absurd ?_ (R.stop q (R'.frames q List.mem_cons_self))
      refine ⟨xs'.flatten ++ rest', ?_⟩
      rw [← List.append_assoc]
      exact R'.words.symm.trans R.words
  | cons p xs ih =>
    intro rest xs' rest' R R'
    cases xs' with
    | nil =>
      refine absurd ?_ (R'.stop p (R.frames p List.mem_cons_self))
      refine ⟨xs.flatten ++ rest, ?_⟩
      rw [← List.append_assoc]
      exact R.words.symm.trans R'.words
    | cons q xs' =>
      have h := R.words.symm.trans R'.words
      rw [List.flatten_cons, List.flatten_cons, List.append_assoc, List.append_assoc] at h
      obtain ⟨e, e'⟩ := (R.frames p List.mem_cons_self).unique (R'.frames q List.mem_cons_self) h
      subst e
      obtain ⟨e1, e2⟩ := ih (b := xs.flatten ++ rest)
        ⟨rfl, fun q hq => R.frames q (List.mem_cons_of_mem _ hq), R.stop⟩
        ⟨e', fun q hq => R'.frames q (List.mem_cons_of_mem _ hq), R'.stop⟩
      exact ⟨by rw [e1], e2⟩

theorem FramesOf.trans {b c : List (BitVec 32)} {xs ys : List (List (BitVec 32))}
    {r s : List (BitVec 32)} (R : FramesOf b xs r) (S : FramesOf (r ++ c) ys s) :
    FramesOf (b ++ c) (xs ++ ys) s := by
  refine ⟨?_, fun p hp => ?_, S.stop⟩
  · rw [R.words, List.append_assoc, S.words, List.flatten_append, List.append_assoc]
  · rcases List.mem_append.mp hp with h | h
    · exact R.frames p h
    · exact S.frames p h

theorem FramesOf.nil : FramesOf [] [] [] :=
  ⟨rfl, (fun q hq => nomatch hq), fun x F hx => by
    have := F.pos
    have := hx.length_le
    rw [List.length_nil] at this
    omega⟩

theorem PacketKind.Accepts.code_first {k : PacketKind} {w : BitVec 32} {t : List (BitVec 32)}
    (A : k.Accepts (w :: t)) : field w 0 4 = k.code := by
  have h := A.type
  rw [fieldAt_cons] at h
  exact Option.some.inj h

/-- A frame that is accepted has the length of its packet. -/
theorem Frame.whole {x : List (BitVec 32)} (F : Frame x) {k : PacketKind} (A : k.Accepts x) :
    PacketKind.Whole (k, x) := by
  obtain ⟨w, t, rfl, hl⟩ := F
  rw [A.code_first, k.standard_words] at hl
  exact ⟨A, hl⟩

theorem PacketKind.Whole.frame {p : PacketKind × List (BitVec 32)} (W : PacketKind.Whole p) :
    Frame p.2 := by
  obtain ⟨k, x⟩ := p
  cases x with
  | nil => exact absurd W.pos (Nat.lt_irrefl _)
  | cons w t =>
    have A : k.Accepts (w :: t) := W.accepted
    refine ⟨w, t, rfl, ?_⟩
    rw [A.code_first, k.standard_words]
    exact W.length

/-- What is behind a frame does not matter to its acceptance. -/
theorem Frame.accepts_left {x c : List (BitVec 32)} (F : Frame x) {k : PacketKind}
    (A : k.Accepts (x ++ c)) : k.Accepts x := by
  have hp := F.pos
  refine PacketKind.accepts_front A (fun a w => (fieldAt_left c hp a w).symm) ?_
  obtain ⟨w, t, rfl, hl⟩ := F
  rw [List.cons_append] at A
  rw [A.code_first, k.standard_words] at hl
  rw [hl]
  exact k.least_le

theorem Picked.exists : ∀ (xs : List (List (BitVec 32))), ∃ ps, Picked xs ps
  | [] => ⟨[], .nil⟩
  | x :: xs => by
    obtain ⟨ps, P⟩ := Picked.exists xs
    by_cases h : ∃ k : PacketKind, k.Accepts x
    · obtain ⟨k, A⟩ := h
      exact ⟨_, .known k A P⟩
    · exact ⟨_, .unknown (fun k A => h ⟨k, A⟩) P⟩

theorem PacketKind.accepts_unique {k k' : PacketKind} {b : List (BitVec 32)} (A : k.Accepts b)
    (B : k'.Accepts b) : k = k' := by
  have h := A.type
  rw [B.type] at h
  have h := Option.some.inj h
  revert h
  cases k <;> cases k' <;> decide

theorem Picked.unique {xs : List (List (BitVec 32))} {ps : List (PacketKind × List (BitVec 32))}
    (P : Picked xs ps) : ∀ {ps'}, Picked xs ps' → ps = ps' := by
  induction P with
  | nil => intro ps' P'; cases P'; rfl
  | known k A _ ih =>
    intro ps' P'
    cases P' with
    | known k' A' P' => rw [PacketKind.accepts_unique A A', ih P']
    | unknown h _ => exact absurd A (h k)
  | unknown h _ ih =>
    intro ps' P'
    cases P' with
    | known k' A' P' => exact absurd A' (h k')
    | unknown _ P' => exact ih P'

theorem Picked.append {xs ys : List (List (BitVec 32))} {ps qs : List (PacketKind × List (BitVec 32))}
    (P : Picked xs ps) (Q : Picked ys qs) : Picked (xs ++ ys) (ps ++ qs) := by
  induction P with
  | nil => exact Q
  | known k A _ ih => exact .known k A ih
  | unknown h _ ih => exact .unknown h ih

theorem skipPackets_of {rest : List (BitVec 32)} (hrest : ∀ x, Frame x → ¬ x <+: rest) :
    ∀ {xs : List (List (BitVec 32))} {ps : List (PacketKind × List (BitVec 32))}, Picked xs ps →
      (∀ x ∈ xs, Frame x) → ∀ n, (xs.flatten ++ rest).length ≤ n →
      skipPackets standardWords n (xs.flatten ++ rest) = .ok (ps, rest) := by
  intro xs ps P
  induction P with
  | nil =>
    intro _ n _
    show skipPackets standardWords n rest = _
    cases n with
    | zero => rfl
    | succ n =>
      have : frontArrived rest = false := by
        cases h : frontArrived rest with
        | false => rfl
        | true =>
          obtain ⟨x, F, hx⟩ := frontArrived_frame.mp h
          exact absurd hx (hrest x F)
      unfold skipPackets
      rw [this]
      rfl
  | @known x xs ps k A _ ih =>
    intro hF n hn
    have F := hF x List.mem_cons_self
    have hp := F.pos
    rw [List.flatten_cons, List.append_assoc] at hn ⊢
    rw [List.length_append] at hn
    obtain ⟨n, rfl⟩ : ∃ m, n = m + 1 := ⟨n - 1, by omega⟩
    unfold skipPackets
    rw [frontArrived_frame.mpr ⟨x, F, List.prefix_append _ _⟩, Bool.not_true,
      if_neg Bool.false_ne_true, (F.whole A).tryFrom]
    show skipPackets standardWords n (List.drop x.length _) >>= _ = _
    rw [List.drop_left, ih (fun q hq => hF q (List.mem_cons_of_mem _ hq)) n (by omega)]
    rfl
  | @unknown x xs ps h _ ih =>
    intro hF n hn
    have F := hF x List.mem_cons_self
    have hp := F.pos
    rw [List.flatten_cons, List.append_assoc] at hn ⊢
    rw [List.length_append] at hn
    obtain ⟨n, rfl⟩ : ∃ m, n = m + 1 := ⟨n - 1, by omega⟩
    unfold skipPackets
    rw [frontArrived_frame.mpr ⟨x, F, List.prefix_append _ _⟩, Bool.not_true,
      if_neg Bool.false_ne_true,
      (C34_packet_accepts_exactly _).2 fun k A => h k (F.accepts_left A)]
    show skipPackets standardWords n (List.drop _ _) = _
    have hw : standardWords (field ((x ++ (xs.flatten ++ rest)).headD 0) 0 4) = x.length := by
      obtain ⟨w, t, rfl, hl⟩ := F
      exact hl.symm
    rw [hw, List.drop_left]
    exact ih (fun q hq => hF q (List.mem_cons_of_mem _ hq)) n (by omega)

theorem skipRead_of : ∀ (pieces : List (List (BitVec 32))) {b : List (BitVec 32)}
    {xs : List (List (BitVec 32))} {ps : List (PacketKind × List (BitVec 32))}
    {r : List (BitVec 32)}, FramesOf b xs r → Picked xs ps →
    ∃ outs ys rest, skipRead standardWords pieces r = .ok (outs, rest) ∧
      outs.length = pieces.length ∧ FramesOf (b ++ pieces.flatten) (xs ++ ys) rest ∧
      Picked (xs ++ ys) (ps ++ outs.flatten)
  | [], b, xs, ps, r, R, P => ⟨[], [], r, rfl, rfl, by simpa using R, by simpa using P⟩
  | p :: pieces, b, xs, ps, r, R, P => by
    obtain ⟨ys, s, S⟩ := framesOf_exists _ (r ++ p) (Nat.le_refl _)
    obtain ⟨qs, Q⟩ := Picked.exists ys
    obtain ⟨outs, zs, rest, h1, h2, h3, h4⟩ := skipRead_of pieces (R.trans S) (P.append Q)
    refine ⟨qs :: outs, ys ++ zs, rest, ?_, by rw [List.length_cons, List.length_cons, h2], ?_, ?_⟩
    · show skipPackets standardWords (r ++ p).length (r ++ p) >>= _ = _
      have := skipPackets_of S.stop Q S.frames (r ++ p).length (by rw [← S.words]; exact Nat.le_refl _)
      rw [← S.words] at this
      rw [this, Res.ok_bind, h1]; rfl
    · rw [List.flatten_cons, ← List.append_assoc, ← List.append_assoc]
      exact h3
    · rw [List.flatten_cons, ← List.append_assoc, ← List.append_assoc]
      exact h4

theorem skipRead_append (skip : Nat → Nat) : ∀ (ps qs : List (List (BitVec 32)))
    (r : List (BitVec 32)), skipRead skip (ps ++ qs) r =
      skipRead skip ps r >>= fun x => skipRead skip qs x.2 >>= fun y => .ok (x.1 ++ y.1, y.2)
  | [], qs, r => by
    show skipRead skip qs r = skipRead skip qs r >>= fun y => .ok ([] ++ y.1, y.2)
    cases skipRead skip qs r <;> rfl
  | p :: ps, qs, r => by
    have h : ∀ ts, skipRead skip (p :: ts) r = skipPackets skip (r ++ p).length (r ++ p) >>=
      fun x => skipRead skip ts x.2 >>= fun y => .ok (x.1 :: y.1, y.2) := fun _ => rfl
    rw [List.cons_append, h, h]
    cases skipPackets skip (r ++ p).length (r ++ p) with
    | err e => rfl
    | panic => rfl
    | ok x =>
      rw [Res.ok_bind, Res.ok_bind, skipRead_append skip ps qs]
      cases skipRead skip ps x.2 with
      | err e => rfl
      | panic => rfl
      | ok y =>
        rw [Res.ok_bind, Res.ok_bind, Res.ok_bind]
        cases skipRead skip qs y.2 <;> rfl

/-- The receiver drops what is no packet itself. -/
theorem Picked.receive {xs : List (List (BitVec 32))} {ps : List (PacketKind × List (BitVec 32))}
    (P : Picked xs ps) (keep : Bool) : (∀ x ∈ xs, Frame x) → ∀ h,
      Rx.receive keep h (ps.map Prod.snd) = Rx.receive keep h xs := by
  induction P with
  | nil => intro _ _; rfl
  | @known x xs ps k A _ ih =>
    intro hF h
    show Rx.step keep h x >>= _ = Rx.step keep h x >>= _
    congr 1
    funext y
    obtain ⟨g, h'⟩ := y
    show Rx.receive keep h' (ps.map Prod.snd) >>= _ = _
    rw [ih (fun q hq => hF q (List.mem_cons_of_mem _ hq))]
  | @unknown x xs ps hu _ ih =>
    intro hF h
    have : Rx.step keep h x = .ok ([], h) := by
      unfold Rx.step
      rw [(C34_packet_accepts_exactly x).2 hu]
    show _ = Rx.step keep h x >>= _
    rw [this, ih (fun q hq => hF q (List.mem_cons_of_mem _ hq))]
    show _ = Rx.receive keep h xs >>= fun gs => pure ([] ++ gs)
    rw [Rx.bind_nil]

theorem packet_frame {b : Buf .ump} {p : PacketKind × Buf .ump} (h : Packet.tryFrom b = .ok p) :
    Frame p.2 := by
  by_cases hk : ∃ k : PacketKind, k.Accepts b
  · obtain ⟨k, A⟩ := hk
    rw [(C34_packet_accepts_exactly b).1 k A] at h
    cases h
    have hb := fieldAt_zero_ne A.type
    have A' : k.Accepts (b ++ List.replicate k.words 0) := PacketKind.accepts_front A
      (fun a w => fieldAt_left _ hb a w)
      (by rw [List.length_append]; exact Nat.le_trans A.len (Nat.le_add_right _ _))
    exact (PacketKind.accepts_whole A' (by
      rw [List.length_append, List.length_replicate]; omega)).frame
  · rw [(C34_packet_accepts_exactly b).2 fun k A => hk ⟨k, A⟩] at h
    cases h

theorem pack_frames : ∀ {cs ps : List (Buf .ump)}, Rx.pack cs = .ok ps → ∀ x ∈ ps, Frame x
  | [], ps, h => by
    cases h
    intro x hx
    cases hx
  | c :: cs, ps, h => by
    unfold Rx.pack at h
    cases hc : Packet.tryFrom c with
    | err e => rw [hc] at h; cases h
    | panic => rw [hc] at h; cases h
    | ok p =>
      rw [hc] at h
      cases hr : Rx.pack cs with
      | err e => rw [hr] at h; cases h
      | panic => rw [hr] at h; cases h
      | ok qs =>
        rw [hr] at h
        cases h
        intro x hx
        rcases List.mem_cons.mp hx with rfl | hx
        · exact packet_frame hc
        · exact pack_frames hr x hx

theorem sendAll_frames : ∀ {ms : List (UmpKind × Buf .ump)} {ps : List (Buf .ump)},
    Rx.sendAll ms = .ok ps → ∀ x ∈ ps, Frame x
  | [], ps, h => by
    cases h
    intro x hx
    cases hx
  | m :: ms, ps, h => by
    unfold Rx.sendAll at h
    cases hc : Rx.send m with
    | err e => rw [hc] at h; cases h
    | panic => rw [hc] at h; cases h
    | ok qs =>
      rw [hc] at h
      cases hr : Rx.sendAll ms with
      | err e => rw [hr] at h; cases h
      | panic => rw [hr] at h; cases h
      | ok rs =>
        rw [hr] at h
        cases h
        intro x hx
        rcases List.mem_append.mp hx with hx | hx
        · unfold Rx.send at hc
          cases hp : UmpMessage.packets m with
          | err e => rw [hp] at hc; cases hc
          | panic => rw [hp] at hc; cases hc
          | ok cs =>
            rw [hp] at hc
            exact pack_frames hc x hx
        · exact sendAll_frames hr x hx

theorem mixed_frames {A : Rx.Lane → Prop} {f f' : Rx.Lane → List (Buf .ump)} {s : List (Buf .ump)}
    (M : Rx.Mixed A f s f') : (∀ l, A l → ∀ x ∈ f l, Frame x) →
    (∀ x ∈ s, ¬ A (Rx.laneAt x) → Frame x) → ∀ x ∈ s, Frame x := by
  induction M with
  | stop => intro _ _ x hx; cases hx
  | @next f s f' l y r hl hf _ ih =>
    intro h1 h2 x hx
    rcases List.mem_cons.mp hx with rfl | hx
    · exact h1 l hl x (by rw [hf]; exact List.mem_cons_self)
    · refine ih (fun l' hl' z hz => ?_) (fun z hz => h2 z (List.mem_cons_of_mem _ hz)) x hx
      unfold Rx.put at hz
      split at hz
      · next e => subst e; exact h1 _ hl z (by rw [hf]; exact List.mem_cons_of_mem _ hz)
      · exact h1 l' hl' z hz
  | other y hy _ ih =>
    intro h1 h2 x hx
    rcases List.mem_cons.mp hx with rfl | hx
    · exact h2 x List.mem_cons_self hy
    · exact ih h1 (fun z hz => h2 z (List.mem_cons_of_mem _ hz)) x hx

end Midi2
