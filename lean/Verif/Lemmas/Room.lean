import Verif.Lemmas.EffortExact
import Verif.Lemmas.EffortApi
import Verif.Lemmas.Custom
import Verif.Lemmas.StaleStream

/-! Splices in a buffer that grants every size asked for. -/

namespace Midi2

namespace SxOps

variable {S β : Type} {A : Type}

/-- All sizes in the record are granted. -/
def Granted (ok : Nat → Prop) (e : Effort) : Prop := ∀ n ∈ e.resizes, ok n

/-- If `x` comes to something with a record of granted sizes only, then so does `y`, and the record
was one of granted sizes before. -/
def Sim (ok : Nat → Prop) (get : A → Effort) (e : Effort) (x y : Res A) : Prop :=
  ∀ a, x = .ok a → Granted ok (get a) → Granted ok e ∧ y = .ok a

variable {ok : Nat → Prop}

theorem Sim.bind {B : Type} {get1 : A → Effort} {get2 : B → Effort} {e : Effort} {x y : Res A}
    {f g : A → Res B} (h : Sim ok get1 e x y) (hf : ∀ a, Sim ok get2 (get1 a) (f a) (g a)) :
    Sim ok get2 e (x >>= f) (y >>= g) := by
  intro b hb hg
  obtain ⟨a, ha, hb⟩ := Res.of_bind_ok hb
  obtain ⟨h1, h2⟩ := hf a b hb hg
  obtain ⟨h3, h4⟩ := h a ha h1
  exact ⟨h3, by rw [h4]; exact h2⟩

theorem Sim.pure {get : A → Effort} {e : Effort} (a : A) (h : get a = e) :
    Sim ok get e (.ok a) (.ok a) := by
  intro b hb hg
  cases hb
  exact ⟨h ▸ hg, rfl⟩

theorem Sim.fail {get : A → Effort} {e : Effort} {y : Res A} : Sim ok get e .panic y :=
  fun _ h => nomatch h

theorem Sim.const {get : A → Effort} {e : Effort} (x : Res A) (h : ∀ a, get a = e) :
    Sim ok get e x x := fun a ha hg => ⟨h a ▸ hg, ha⟩

variable (p q : SxOps S β)

/-- Two messages that differ only in the sizes that are not granted. -/
structure Alike (ok : Nat → Prop) (p q : SxOps S β) : Prop where
  compact : p.compact = q.compact
  size : p.payloadSize = q.payloadSize
  move : p.moveTail = q.moveTail
  write : p.writeDatum = q.writeDatum
  resize : ∀ s n, ok n → p.resize s n = q.resize s n

variable {p q} (H : Alike ok p q)
include H

theorem sim_compact (x : S × Effort) :
    Sim ok Prod.snd x.2 (p.logged.compact x) (q.logged.compact x) := by
  show Sim ok Prod.snd x.2 (p.compact x.1 >>= fun y => .ok (y, x.2)) (q.compact x.1 >>= fun y => .ok (y, x.2))
  rw [H.compact]
  exact .bind (get1 := fun _ => x.2) (.const _ fun _ => rfl) fun a => .pure _ rfl

theorem sim_move (x : S × Effort) (t u : Nat) :
    Sim ok Prod.snd x.2 (p.logged.moveTail x t u) (q.logged.moveTail x t u) := by
  show Sim ok Prod.snd x.2 (p.moveTail x.1 t u >>= fun y => .ok (y, _))
    (q.moveTail x.1 t u >>= fun y => .ok (y, _))
  rw [H.move]
  intro a ha hg
  obtain ⟨y, hy, h⟩ := Res.of_bind_ok ha
  cases h
  exact ⟨hg, ha⟩

theorem sim_write (x : S × Effort) (v : β) (i : Nat) :
    Sim ok Prod.snd x.2 (p.logged.writeDatum x v i) (q.logged.writeDatum x v i) := by
  show Sim ok Prod.snd x.2 (p.writeDatum x.1 v i >>= fun y => .ok (y, _))
    (q.writeDatum x.1 v i >>= fun y => .ok (y, _))
  rw [H.write]
  intro a ha hg
  obtain ⟨y, hy, h⟩ := Res.of_bind_ok ha
  cases h
  exact ⟨hg, ha⟩

theorem sim_resize (x : S × Effort) (n : Nat) :
    Sim ok (fun y => y.1.2) x.2 (p.logged.resize x n) (q.logged.resize x n) := by
  intro a ha hg
  have hq : q.logged.resize x n = (q.resize x.1 n >>= fun y =>
    .ok ((y.1, { x.2 with resizes := x.2.resizes ++ [n] }), y.2)) := rfl
  have hp : p.logged.resize x n = (p.resize x.1 n >>= fun y =>
    .ok ((y.1, { x.2 with resizes := x.2.resizes ++ [n] }), y.2)) := rfl
  rw [hp] at ha
  have ha' := ha
  obtain ⟨y, hy, h⟩ := Res.of_bind_ok ha
  cases h
  have hn : ok n := hg n (by simp)
  refine ⟨fun m hm => hg m (by simp [hm]), ?_⟩
  rw [hq, ← H.resize _ _ hn]
  exact ha'

theorem sim_fill (begin est : Nat) : ∀ (data : List β) (x : S × Effort) (w : Nat),
    Sim ok (fun y => y.1.2) x.2 (p.logged.fill begin est data x w) (q.logged.fill begin est data x w) := by
  intro data
  induction data with
  | nil => intro x w; exact .pure _ rfl
  | cons v data ih =>
    intro x w
    unfold SxOps.fill
    split
    · exact .bind (sim_write H x v _) fun y => ih y _
    · exact .pure _ rfl

theorem sim_firstGrow (x : S × Effort) (e i sp est : Nat) :
    Sim ok (fun y => y.1.2) x.2 (p.logged.firstGrow x e i sp est)
      (q.logged.firstGrow x e i sp est) := by
  unfold SxOps.firstGrow
  refine .bind (get1 := fun _ => x.2) (.const _ fun _ => rfl) fun g => ?_
  split
  · refine .bind (get1 := fun _ => x.2) (.const _ fun _ => rfl) fun n =>
      .bind (sim_resize H x n) fun y => ?_
    obtain ⟨y, _ | sz⟩ := y
    · exact .pure _ rfl
    · exact .bind (get1 := fun _ => y.2) (.const _ fun _ => rfl) fun kept => .pure _ rfl
  · exact .pure _ rfl

theorem sim_growMore (x : S × Effort) (b t i sp est : Nat) :
    Sim ok (fun y => y.1.2) x.2 (p.logged.growMore x b t i sp est)
      (q.logged.growMore x b t i sp est) := by
  unfold SxOps.growMore
  split
  · refine .bind (get1 := fun _ => x.2) (.const _ fun _ => rfl) fun n =>
      .bind (sim_resize H x n) fun y => ?_
    obtain ⟨y, _ | sz⟩ := y
    · exact .pure _ rfl
    · exact .bind (get1 := fun _ => y.2) (.const _ fun _ => rfl) fun kept =>
        .bind (get1 := fun _ => y.2) (.const _ fun _ => rfl) fun to => .pure _ rfl
  · exact .pure _ rfl

theorem sim_mainLoop (b i sp : Nat) : ∀ (fuel : Nat) (x : S × Effort) (data : List β)
    (w est add tail : Nat),
    Sim ok (fun r => (Paced.LoopEnd.record r).2) x.2
      (p.logged.mainLoop b i sp fuel x data w est add tail)
      (q.logged.mainLoop b i sp fuel x data w est add tail) := by
  intro fuel
  induction fuel with
  | zero => intros; exact .fail
  | succ fuel ih =>
    intro x data w est add tail
    unfold SxOps.mainLoop
    refine .bind (sim_fill H b est data x w) fun y => ?_
    obtain ⟨y, data, w, ex⟩ := y
    simp only
    split
    · exact .pure _ rfl
    · refine .bind (get1 := fun _ => y.2) (.const _ fun _ => rfl) fun _ => ?_
      split
      · exact .pure _ rfl
      · refine .bind (sim_growMore H y b tail i sp (est + add)) fun z => ?_
        obtain ⟨z, est', to⟩ := z
        refine .bind (sim_move H z tail to) fun u => ?_
        simp only
        split
        · exact .pure _ rfl
        · exact ih _ _ _ _ _ _

theorem sim_detail (x : S × Effort) (d : Src β) (rb re : Bound) :
    Sim ok (fun y => y.1.2) x.2 (p.logged.trySpliceDetail x d rb re)
      (q.logged.trySpliceDetail x d rb re) := by
  unfold SxOps.trySpliceDetail
  refine .bind (sim_compact H x) fun x => ?_
  have hsz : q.logged.payloadSize x = p.logged.payloadSize x := by
    show q.payloadSize x.1 = p.payloadSize x.1
    rw [H.size]
  rw [hsz]
  refine .bind (get1 := fun _ => x.2) (.const _ fun _ => rfl) fun n => ?_
  refine .bind (get1 := fun _ => x.2) (.const _ fun _ => rfl) fun sp => ?_
  refine .bind (sim_firstGrow H x _ _ _ _) fun y => ?_
  obtain ⟨y, est⟩ := y
  refine .bind (get1 := fun _ => y.2) (.const _ fun _ => rfl) fun tail => ?_
  refine .bind (sim_move H y _ _) fun y => ?_
  refine .bind (sim_mainLoop H _ _ _ _ y _ _ _ _ _) fun r => ?_
  cases r with
  | overflow s => exact .pure _ rfl
  | done s w t =>
    refine .bind (sim_move H s _ _) fun y => ?_
    refine .bind (get1 := fun _ => y.2) (.const _ fun _ => rfl) fun m => ?_
    refine .bind (sim_resize H y m) fun z => ?_
    exact .pure _ rfl

omit H in
theorem logged_detail_fst {x : S} {e : Effort} {d : Src β} {rb re : Bound} {s' : S} {eff : Effort}
    {o : Option Error} (h : p.logged.trySpliceDetail (x, e) d rb re = .ok ((s', eff), o)) :
    p.trySpliceDetail x d rb re = .ok (s', o) := by
  have := p.same_detail (x, e) d rb re
  rw [h] at this
  change Same _ _ (p.trySpliceDetail x d rb re) at this
  generalize p.trySpliceDetail x d rb re = z at this ⊢
  cases this
  rfl

end SxOps

theorem guesses_le (items : Nat) : ∀ (m est add : Nat), items - est ≤ m → add ≤ est →
    ∀ n ∈ guesses items est add, n ≤ 2 * items := by
  intro m
  induction m with
  | zero =>
    intro est add hm ha n hn
    rw [guesses_ge (by omega)] at hn
    cases hn
  | succ m ih =>
    intro est add hm ha n hn
    by_cases h : est < items
    · rw [guesses_lt h, List.mem_cons] at hn
      rcases hn with rfl | hn
      · omega
      · exact ih _ _ (by omega) (by omega) n hn
    · rw [guesses_ge (by omega)] at hn
      cases hn

theorem Src.work_le {β : Type} (d : Src β) (size first last n : Nat)
    (hn : n ∈ (d.work size first last).resizes) : n ≤ size - (last - first) + d.reach := by
  have hr : d.upper.getD d.lower ≤ d.reach := by unfold Src.reach; split <;> omega
  have hi : d.items.length ≤ d.reach := by unfold Src.reach; split <;> omega
  unfold Src.work at hn
  simp only [List.mem_append, List.mem_map, List.mem_singleton] at hn
  rcases hn with hn | ⟨a, ha | rfl, rfl⟩
  · split at hn
    · rw [List.mem_singleton] at hn; omega
    · cases hn
  · by_cases h : d.items.length ≤ d.upper.getD d.lower
    · rw [guesses_ge h] at ha; cases ha
    · have := guesses_le d.items.length _ _ _ (Nat.le_refl _) (Nat.zero_le _) a ha
      have : d.reach = 2 * d.items.length := if_neg h
      omega
  · omega

namespace Sx

/-- The buffer without its limit. -/
def limitless (cap : Nat) (f : (w : Nat) → List (BitVec w) → Nat → List (BitVec w) × Bool) (w : Nat)
    (b : List (BitVec w)) (n : Nat) : List (BitVec w) :=
  if n ≤ cap then (f w b n).1 else vecResize b n

theorem limitless_grows {cap : Nat} {f : (w : Nat) → List (BitVec w) → Nat → List (BitVec w) × Bool}
    {w : Nat} (hf : TryGrows (f w) cap) : Grows (limitless cap f w) := by
  refine ⟨fun b n => ?_, fun b n i h1 h2 => ?_⟩
  · unfold limitless
    split
    · next h => exact hf.length _ _ h
    · unfold vecResize
      rw [List.length_append, List.length_take, List.length_replicate]
      omega
  · unfold limitless
    split
    · next h => exact hf.keeps _ _ _ h h1 h2
    · unfold vecResize
      rw [List.getElem?_append_left (by rw [List.length_take]; omega), List.getElem?_take_of_lt h1]

theorem limitless_alike (k : Sx) (dbg : Bool) {cap : Nat}
    {f : (w : Nat) → List (BitVec w) → Nat → List (BitVec w) × Bool} (hf : TryGrows (f 32) cap) :
    SxOps.Alike (fun n => k.stride * k.count n ≤ cap) (k.ops dbg (.grow (limitless cap f)))
      (k.ops dbg (.tryGrow f)) := by
  refine ⟨rfl, rfl, rfl, rfl, fun b n hn => ?_⟩
  show k.tryResize (.grow (limitless cap f)) b n = k.tryResize (.tryGrow f) b n
  have hb : k.bufferSize n ≤ cap := by rw [k.bufferSize_eq]; exact hn
  have : (Mem.grow (limitless cap f)).resize b (k.bufferSize n) =
      (Mem.tryGrow f).resize b (k.bufferSize n) := by
    show (limitless cap f 32 b (k.bufferSize n), true) = f 32 b (k.bufferSize n)
    unfold limitless
    rw [if_pos hb, ← hf.ok b _ hb]
  unfold tryResize
  simp only
  rw [this]

theorem paced_grow (k : Sx) (dbg : Bool) (f : (w : Nat) → List (BitVec w) → Nat → List (BitVec w)) :
    Paced (k.ops dbg (.grow f)) (fun _ => True) none where
  resize {s n s' r} _ h := by
    have h : k.tryResize (.grow f) s n = .ok (s', r) := h
    refine ⟨trivial, fun _ c hc => (by cases hc), fun sz hs => ?_⟩
    have := (tryResize_len h).2
    rw [hs] at this
    cases this
  compact _ _ := trivial
  move _ _ := trivial
  write _ _ := trivial

/-- A splice in a buffer with enough room. -/
theorem room_splice (k : Sx) {dbg : Bool} {cap : Nat} {g : BitVec 4}
    {f : (w : Nat) → List (BitVec w) → Nat → List (BitVec w) × Bool} (hf : TryGrows (f 32) cap)
    {b : Buf .ump} {l : List k.Byte} (S : Strict k dbg Any g none b l) (d : Src k.Byte)
    (rb re : Bound) (h1 : rb.first ≤ re.last l.length) (h2 : re.last l.length ≤ l.length)
    (hr : k.stride * k.count (l.length - (re.last l.length - rb.first) + d.reach) ≤ cap) :
    ∃ b', (k.ops dbg (.tryGrow f)).trySplice b d rb re = .ok (b', none) ∧
      Strict k dbg Any g none b' (spliced l rb.first (re.last l.length) d.items) := by
  obtain ⟨b0, c1, c2⟩ := Loose.compact (inv_any k) (N := none) ⟨⟨_, S.packed⟩, S.whole⟩
  have hg := limitless_grows hf
  obtain ⟨b', e, S'⟩ := splice_grow k hg c1 c2 d rb re h1 h2
  refine ⟨b', ?_, S'⟩
  have hs := SxOps.same_detail (k.ops dbg (.grow (limitless cap f))) (b, {}) d rb re
  unfold SxOps.splice at e
  obtain ⟨⟨s1, o⟩, hd, e⟩ := Res.of_bind_ok e
  change SxOps.Same _ _ ((k.ops dbg (.grow (limitless cap f))).trySpliceDetail b d rb re) at hs
  rw [hd] at hs
  generalize hl : (k.ops dbg (.grow (limitless cap f))).logged.trySpliceDetail (b, {}) d rb re = z at hs
  generalize hy : Res.ok (s1, o) = y at hs
  cases hs with
  | err _ => cases hy
  | panic => cases hy
  | ok a =>
    obtain ⟨⟨s2, eff⟩, o2⟩ := a
    simp only [Res.ok.injEq, Prod.mk.injEq] at hy
    obtain ⟨rfl, rfl⟩ := hy
    cases o with
    | some _ => cases e
    | none =>
      cases e
      obtain ⟨s0, n, d1, d2, d3⟩ := (paced_grow k dbg _).detail_work trivial hl
      have d1 : k.compact b = .ok s0 := d1
      rw [c1] at d1
      cases d1
      have d2 : k.payloadSize b0 = .ok n := d2
      have d4 := c2.1
      obtain ⟨p, P⟩ := d4
      rw [P.payloadSize_eq] at d2
      cases d2
      rw [spliceEnd_eq, spliceBegin_eq] at d3
      have heff := d3 h2
      have hgr : SxOps.Granted (fun n => k.stride * k.count n ≤ cap) eff := by
        intro n hn
        rw [heff] at hn
        have := d.work_le _ _ _ _ hn
        exact Nat.le_trans (Nat.mul_le_mul_left _ (k.count_mono this)) hr
      obtain ⟨-, hx⟩ := SxOps.sim_detail (limitless_alike k dbg hf) (b, {}) d rb re _ hl hgr
      have := SxOps.logged_detail_fst hx
      unfold SxOps.trySplice
      rw [this]
      rfl

theorem room_set (k : Sx) {dbg : Bool} {cap : Nat} {g : BitVec 4}
    {f : (w : Nat) → List (BitVec w) → Nat → List (BitVec w) × Bool} (hf : TryGrows (f 32) cap)
    {b : Buf .ump} {l : List k.Byte} (S : Strict k dbg Any g none b l) (d : Src k.Byte)
    (hr : k.stride * k.count d.reach ≤ cap) :
    ∃ b', (k.ops dbg (.tryGrow f)).trySetPayload b d = .ok (b', none) ∧
      Strict k dbg Any g none b' d.items := by
  have h0 : k.stride * k.count 0 ≤ cap :=
    Nat.le_trans (Nat.mul_le_mul_left _ (k.count_mono (Nat.zero_le _))) hr
  obtain ⟨b1, l1, e1, S1, h1, _⟩ := k.tryResize_granted (m := .tryGrow f) (dbg := dbg) (b := b)
    (n := 0) (b1 := (f 32 b (k.stride * k.count 0)).1) (by
      show f 32 b (k.stride * k.count 0) = _
      rw [← hf.ok b _ h0]) (hf.length _ _ h0) (fun i h1 h2 => hf.keeps _ _ _ h0 h1 h2)
    S.packed.group_eq
  have : l1 = [] := List.eq_nil_of_length_eq_zero h1
  subst this
  obtain ⟨b', e2, S2⟩ := room_splice k hf S1 d (.included 0) (.excluded 0)
    (by simp [Bound.first, Bound.last]) (by simp [Bound.last])
    (by simpa [Bound.first, Bound.last] using hr)
  refine ⟨b', ?_, ?_⟩
  · unfold SxOps.trySetPayload
    show ((k.tryResize (.tryGrow f) b 0) >>= fun x => _) = _
    rw [e1]
    exact e2
  · simpa [spliced, Bound.first, Bound.last] using S2

theorem room_exec {k : Sx} {dbg : Bool} {cap : Nat}
    {f : (w : Nat) → List (BitVec w) → Nat → List (BitVec w) × Bool} (hf : TryGrows (f 32) cap)
    {b : Buf .ump} {g : BitVec 4} {l : List k.Byte} (S : Strict k dbg Any g none b l)
    (c : SxTryCall k) (hc : c.InBounds l) (hr : k.stride * k.count (c.room l) ≤ cap) :
    ∃ b', c.execOn (.tryGrow f) dbg b = .ok (b', none) ∧
      Strict k dbg Any (c.group g) none b' (c.wanted l) := by
  have hps : (k.ops dbg (.tryGrow f)).payloadSize b = .ok l.length := S.packed.payloadSize_eq
  have hins : ∀ (d : Src k.Byte) (i : Nat), i ≤ l.length →
      k.stride * k.count (l.length + d.reach) ≤ cap → ∃ b',
      (k.ops dbg (.tryGrow f)).tryInsert b d i = .ok (b', none) ∧
      Strict k dbg Any g none b' (l.take i ++ d.items ++ l.drop i) := by
    intro d i hi hr
    exact room_splice k hf S d (.included i) (.excluded i) (Nat.le_refl _) hi
      (by simpa [Bound.first, Bound.last] using hr)
  have happ : ∀ d : Src k.Byte, k.stride * k.count (l.length + d.reach) ≤ cap → ∃ b',
      (k.ops dbg (.tryGrow f)).tryInsert b d l.length = .ok (b', none) ∧
      Strict k dbg Any g none b' (l ++ d.items) := by
    intro d hr
    have := hins d l.length (Nat.le_refl _) hr
    simpa using this
  cases c with
  | setGroup g' => exact ⟨_, rfl, S.setGroup g' (fun _ => trivial)⟩
  | setPayload d => exact room_set k hf S d hr
  | splicePayload d rb re => exact room_splice k hf S d rb re hc.1 hc.2 hr
  | insertPayload d i => exact hins d i hc hr
  | appendPayload d =>
    obtain ⟨b', e, S'⟩ := happ d hr
    refine ⟨b', ?_, S'⟩
    show (k.ops dbg (.tryGrow f)).tryAppend b d = _
    unfold SxOps.tryAppend
    rw [hps]; exact e
  | appendByte v =>
    obtain ⟨b', e, S'⟩ := happ ⟨[v], 1, some 1⟩ hr
    refine ⟨b', ?_, S'⟩
    show (k.ops dbg (.tryGrow f)).tryAppendByte b v = _
    unfold SxOps.tryAppendByte
    rw [hps]; exact e
  | setPayloadByte i v =>
    obtain ⟨b', e, S'⟩ := S.setByte (inv_any k) v hc
    refine ⟨b', ?_, S'⟩
    show (k.setByte b v i).bind _ = _
    rw [e]; rfl

theorem wanted_le_room {k : Sx} (l : List k.Byte) (c : SxTryCall k) (hc : c.InBounds l) :
    (c.wanted l).length ≤ c.room l := by
  have hi : ∀ d : Src k.Byte, d.items.length ≤ d.reach := by
    intro d; unfold Src.reach; split <;> omega
  cases c with
  | setGroup g' => exact Nat.le_refl _
  | setPayload d => exact hi d
  | splicePayload d rb re =>
    have := hi d
    have h1 : rb.first ≤ re.last l.length := hc.1
    have h2 : re.last l.length ≤ l.length := hc.2
    simp only [SxTryCall.wanted, spliced, SxTryCall.room, List.length_append, List.length_take,
      List.length_drop]
    omega
  | insertPayload d i =>
    have := hi d
    have hc : i ≤ l.length := hc
    simp only [SxTryCall.wanted, SxTryCall.room, List.length_append, List.length_take,
      List.length_drop]
    omega
  | appendPayload d =>
    have := hi d
    simp only [SxTryCall.wanted, SxTryCall.room, List.length_append]
    omega
  | appendByte v => simp [SxTryCall.wanted, SxTryCall.room]
  | setPayloadByte i v => simp [SxTryCall.wanted, SxTryCall.room]

theorem room_history {k : Sx} {dbg : Bool} {cap : Nat}
    {f : (w : Nat) → List (BitVec w) → Nat → List (BitVec w) × Bool} (hf : TryGrows (f 32) cap) :
    ∀ (cs : List (SxTryCall k)) (b : Buf .ump) (s : BitVec 4 × List k.Byte),
      SxTryCall.AllRoomy cap cs s → CapStrict k dbg s.1 cap b s.2 →
      ∃ b', SxTryCall.execAllOn (.tryGrow f) dbg cs b = .ok (b', cs.map fun _ => none) ∧
        CapStrict k dbg (SxTryCall.wantAll cs s).1 cap b' (SxTryCall.wantAll cs s).2 := by
  intro cs
  induction cs with
  | nil => intro b s _ S; exact ⟨b, rfl, S⟩
  | cons c cs ih =>
    intro b s hr S
    obtain ⟨h1, h2, h3⟩ := hr
    rw [wireLength_eq] at h2
    obtain ⟨b1, e1, S1⟩ := room_exec hf S.1 c h1 (by omega)
    have hl : b1.length ≤ cap := by
      rw [S1.exact rfl]
      exact Nat.le_trans (Nat.mul_le_mul_left _ (k.count_mono (wanted_le_room s.2 c h1))) (by omega)
    obtain ⟨b2, e2, S2⟩ := ih b1 (c.group s.1, c.wanted s.2) h3 ⟨S1, hl⟩
    refine ⟨b2, ?_, S2⟩
    simp only [SxTryCall.execAllOn]
    rw [e1, Res.ok_bind]
    simp only
    rw [e2]
    rfl

/-- A call in a buffer with a capacity. -/
theorem fair_exec {k : Sx} {dbg : Bool} {cap : Nat} (hcap : k.stride ≤ cap)
    {f : (w : Nat) → List (BitVec w) → Nat → List (BitVec w) × Bool} (hf : TryGrows (f 32) cap)
    {b : Buf .ump} {s : BitVec 4 × List k.Byte} (S : CapStrict k dbg s.1 cap b s.2)
    (c : SxTryCall k) (hc : c.Fair cap s.2) :
    ∃ b' e, c.execOn (.tryGrow f) dbg b = .ok (b', e) ∧ (e = none ∨ e = some .bufferOverflow) ∧
      CapStrict k dbg (c.after s e).1 cap b' (c.after s e).2 ∧
      (k.layout.wireLength (c.room s.2) ≤ 4 * cap → e = none) ∧
      (4 * cap < k.layout.wireLength (c.wanted s.2).length → e = some .bufferOverflow) ∧
      (c.ExactHint → k.layout.wireLength (c.wanted s.2).length ≤ 4 * cap → e = none) := by
  rw [wireLength_eq, wireLength_eq]
  by_cases hroom : k.stride * k.count (c.room s.2) ≤ cap
  · obtain ⟨b', e1, S1⟩ := room_exec hf S.1 c hc.1 hroom
    have hm := Nat.mul_le_mul_left k.stride (k.count_mono (wanted_le_room s.2 c hc.1))
    refine ⟨b', none, e1, .inl rfl, ⟨S1, ?_⟩, fun _ => rfl, fun h => by omega, fun _ _ => rfl⟩
    have := S1.exact rfl
    omega
  · have hs : c.ExactSplice := by
      rcases hc.2 with h | h
      · exact h
      · rw [wireLength_eq] at h; omega
    have hr : c.InRange s.2 := by
      have h1 := hc.1
      cases c with
      | splicePayload d rb re =>
        exact ⟨h1.1, h1.2, .inr (Nat.le_of_eq (show d.items.length = _ from (show _ = _ from hs).symm))⟩
      | setGroup _ => trivial
      | setPayload _ => trivial
      | insertPayload _ _ => exact h1
      | appendPayload _ => trivial
      | appendByte _ => trivial
      | setPayloadByte _ _ => exact h1
    rcases cap_exec hcap hf S c hr hs with ⟨b', e1, S1⟩ | ⟨h, b', e1, S1⟩
    · refine ⟨b', none, e1, .inl rfl, S1, fun _ => rfl, fun hx => ?_, fun _ _ => rfl⟩
      have := S1.1.exact rfl
      have := S1.2
      omega
    · refine ⟨b', some .bufferOverflow, e1, .inr rfl, S1, fun hx => absurd (by omega) hroom,
        fun _ => rfl, fun hx hy => ?_⟩
      have := h hx
      omega

end Sx

end Midi2
