import Verif.Lemmas.SysexBytesOctet

/-! # The caller's iterator, and payloads of any bytes -/

namespace Midi2

/-- What a call returned, through a function. -/
def Poll.map {β γ : Type} (f : β → γ) : Poll β → Poll γ
  | .item v => .item (f v)
  | .none => .none
  | .panic => .panic

/-- An iterator through a function. -/
def Feed.map {β γ : Type} (f : β → γ) (d : Feed β) : Feed γ := ⟨d.hint, fun n => (d.poll n).map f⟩

/-- The state of `Peekable` through a function. -/
def Peek.map {β γ : Type} (f : β → γ) (p : Peek β) : Peek γ := ⟨p.calls, p.peeked.map (·.map f)⟩

theorem Feed.map_yields {β γ : Type} (f : β → γ) {d : Feed β} {l : List β} (h : d.Yields l) :
    (d.map f).Yields (l.map f) := by
  intro i hi
  have := h i (by simpa using hi)
  unfold Feed.map
  simp only [this, Poll.map, List.getElem_map]

theorem Feed.map_crashes {β γ : Type} (f : β → γ) {d : Feed β} {l : List β} (h : d.Crashes l) :
    (d.map f).Crashes (l.map f) := by
  refine ⟨Feed.map_yields f h.1, ?_⟩
  show (d.poll _).map f = _
  rw [List.length_map, h.2]; rfl

theorem Feed.next_map {β γ : Type} (f : β → γ) (d : Feed β) (p : Peek β) :
    (d.map f).next (p.map f) = ((d.next p).1.map f, (d.next p).2.map f) := by
  obtain ⟨c, _ | _ | v⟩ := p <;> rfl

theorem Feed.peek_map {β γ : Type} (f : β → γ) (d : Feed β) (p : Peek β) :
    (d.map f).peek (p.map f) = ((d.peek p).1.map f, (d.peek p).2.map f) := by
  obtain ⟨c, _ | _ | v⟩ := p
  · show (match (d.poll c).map f with
      | .item v => ((.item v, ⟨c + 1, some (some v)⟩) : Poll γ × Peek γ)
      | .none => (.none, ⟨c + 1, some none⟩)
      | .panic => (.panic, ⟨c + 1, none⟩)) =
      ((match d.poll c with
      | .item v => ((.item v, ⟨c + 1, some (some v)⟩) : Poll β × Peek β)
      | .none => (.none, ⟨c + 1, some none⟩)
      | .panic => (.panic, ⟨c + 1, none⟩)).1.map f, _)
    unfold Feed.peek
    cases d.poll c <;> rfl
  · rfl
  · rfl

namespace Run

theorem bind_assoc' {S α γ δ : Type} (x : Run S α) (f : α → Run S γ) (g : γ → Run S δ) :
    ((x >>= f) >>= g) = (x >>= fun a => f a >>= g) := by
  cases x <;> rfl

end Run

namespace SxOps

variable {S β γ : Type} (ops : SxOps S γ) (f : β → γ) (d : Feed β)

theorem feedFill_contra (begin : Nat) : ∀ (n : Nat) (s : S) (w : Nat) (p : Peek β),
    ops.feedFill (d.map f) begin n s w (p.map f) =
      ((ops.contra f).feedFill d begin n s w p >>= fun x => .ok (x.1, x.2.1.map f, x.2.2)) := by
  intro n
  induction n with
  | zero => intro s w p; rfl
  | succ n ih =>
    intro s w p
    simp only [SxOps.feedFill, Feed.next_map]
    generalize d.next p = z
    obtain ⟨v | _ | _, q⟩ := z
    · simp only [Poll.map]
      rw [Run.bind_assoc']
      show (Run.of (ops.writeDatum s (f v) (begin + w)) >>= _) = (Run.of (ops.writeDatum s (f v) (begin + w)) >>= _)
      congr 1; funext s'
      exact ih s' (w + 1) q
    · rfl
    · rfl

theorem feedLoop_contra (begin initial sp : Nat) : ∀ (turns : Nat) (s : S) (p : Peek β) (w est add tail : Nat),
    ops.feedLoop (d.map f) begin initial sp turns s (p.map f) w est add tail =
      (ops.contra f).feedLoop d begin initial sp turns s p w est add tail := by
  intro turns
  induction turns with
  | zero => intros; rfl
  | succ turns ih =>
    intro s p w est add tail
    unfold SxOps.feedLoop
    rw [feedFill_contra, Run.bind_assoc']
    congr 1; funext x
    obtain ⟨s, p, w, ex⟩ := x
    simp only [Run.ok_bind]
    split
    · rfl
    · congr 1; funext _
      rw [Feed.peek_map]
      generalize d.peek p = z
      obtain ⟨v | _ | _, q⟩ := z
      · simp only [Poll.map]
        show (Run.of (ops.growMore s begin tail initial sp (est + add)) >>= _) =
          (Run.of (ops.growMore s begin tail initial sp (est + add)) >>= _)
        congr 1; funext y
        obtain ⟨s, est, to⟩ := y
        show (Run.of (ops.moveTail s tail to) >>= _) = (Run.of (ops.moveTail s tail to) >>= _)
        congr 1; funext s
        dsimp only
        split
        · rfl
        · exact ih _ _ _ _ _ _
      · rfl
      · rfl

theorem feedDetail_contra (turns : Nat) (s : S) (rb re : Bound) :
    (ops.contra f).feedDetail turns s d rb re = ops.feedDetail turns s (d.map f) rb re := by
  unfold SxOps.feedDetail
  have e0 : (d.map f).hint = d.hint := rfl
  have e1 : ∀ b i sp t s est tail, ops.feedLoop (d.map f) b i sp t s ⟨0, none⟩ 0 est 1 tail =
      (ops.contra f).feedLoop d b i sp t s ⟨0, none⟩ 0 est 1 tail :=
    fun b i sp t s est tail => feedLoop_contra ops f d b i sp t s ⟨0, none⟩ 0 est 1 tail
  rw [e0]
  simp only [e1]
  rfl

theorem feedTrySplice_contra (turns : Nat) (s : S) (rb re : Bound) :
    (ops.contra f).feedTrySplice turns s d rb re = ops.feedTrySplice turns s (d.map f) rb re := by
  unfold SxOps.feedTrySplice
  rw [feedDetail_contra]
  rfl

theorem feedSplice_contra (turns : Nat) (s : S) (rb re : Bound) :
    (ops.contra f).feedSplice turns s d rb re = ops.feedSplice turns s (d.map f) rb re := by
  unfold SxOps.feedSplice
  rw [feedDetail_contra]

end SxOps

end Midi2
