import Verif.Spec.Cable
import Verif.Props.Gateway
import Verif.Lemmas.PiecesBytes

/-! # Lemmas: a MIDI 1.0 cable -/

namespace Midi2.Cable

open Gateway

theorem Plain.alone {m : List (BitVec 8)} (h : Plain m) : ∃ k, BytesKind.Alone (k, m) := by
  obtain ⟨k, M, -, -, -⟩ := midi1_message h.midi1 h.notTimeCode h.notSongPosition h.notTuneRequest
  have F := M.follow []
  rw [List.append_nil] at F
  exact ⟨k, F.1, F.2.1⟩

/-- A status byte, and data bytes but for the `F7` of system exclusive. -/
theorem Plain.shape {m : List (BitVec 8)} (h : Plain m) : ∃ s d, m = s :: d ∧ 0x80 ≤ s.toNat ∧
    s ≠ 0xF7 ∧ ∀ x ∈ d, x.toNat < 0x80 ∨ x = 0xF7 ∧ s = 0xF0 := by
  cases h.midi1 with
  | short x data lo hi n hn hlo hhi hlen hdata =>
    refine ⟨x, data, rfl, ?_, ?_, fun y hy => .inl (hdata y hy)⟩
    · have : ∀ e ∈ midi1Length, 0x80 ≤ e.1 := by decide
      exact Nat.le_trans (this _ hn) hlo
    · rintro rfl
      have : ∀ e ∈ midi1Length, ¬ (e.1 ≤ 0xF7 ∧ 0xF7 < e.2.1) := by decide
      exact this _ hn ⟨hlo, hhi⟩
  | sysex data hdata =>
    refine ⟨0xF0, data ++ [0xF7], rfl, by decide, by decide, fun y hy => ?_⟩
    rcases List.mem_append.mp hy with hy | hy
    · exact .inl (hdata y hy)
    · exact .inr ⟨List.mem_singleton.mp hy, rfl⟩

/-- The parser waits for the last byte of a message. -/
theorem alone_prefix {m : BytesKind × List (BitVec 8)} (A : BytesKind.Alone m) {p d : List (BitVec 8)}
    (h : p ++ d = m.2) (hd : d ≠ []) : ∃ e, BytesMessage.tryFrom p = .err e := by
  rcases (C05_bytes_enums_total p).1 with ⟨k, hk⟩ | he
  · obtain ⟨a, -, A', hp⟩ := bytes_front hk
    obtain ⟨c, rfl⟩ := hp
    obtain ⟨ms, rest, R⟩ := bytesOf_exists _ (c ++ d) (Nat.le_refl _)
    have B : BytesOf m.2 [m] [] := ⟨by simp, fun q hq => by rw [List.mem_singleton.mp hq]; exact A,
      BytesOf.nil.stop⟩
    have C : BytesOf m.2 ((k, a) :: ms) rest := by
      refine ⟨?_, fun q hq => ?_, R.stop⟩
      · rw [List.map_cons, List.flatten_cons, List.append_assoc, ← R.bytes, ← List.append_assoc]
        exact h.symm
      · rcases List.mem_cons.mp hq with rfl | hq
        · exact A'
        · exact R.alone q hq
    obtain ⟨e, -⟩ := B.unique C
    have e := (List.cons.inj e).1
    rw [e] at h
    have := congrArg List.length h
    simp only [List.length_append] at this
    have : 0 < d.length := List.length_pos_iff.mpr hd
    omega
  · exact he

/-- What begins with an undefined status byte is no message. -/
theorem junk_err {j : BitVec 8} {t : List (BitVec 8)} (h : j = 0xF4 ∨ j = 0xF5 ∨ j = 0xF7) :
    ∃ e, BytesMessage.tryFrom (j :: t) = .err e := by
  refine C11_bytes_unknown _ fun k lo hi x rest he hx hb => ?_
  cases hx
  have tbl : ∀ e ∈ bytesTable, ∀ n ∈ [0xF4, 0xF5, 0xF7], ¬ (e.2.1 ≤ n ∧ n < e.2.2) := by
    decide +kernel
  refine tbl _ he j.toNat ?_ hb
  rcases h with rfl | rfl | rfl <;> decide

theorem empty_err : ∃ e, BytesMessage.tryFrom [] = .err e :=
  C11_bytes_unknown _ fun _ _ _ _ _ _ h => nomatch h

/-- What the reader has, whatever may stand on the cable. -/
structure Inv (run : Option (BitVec 8)) (m d : List (BitVec 8)) (st : State) : Prop where
  runs : st.1 = run
  voice : ∀ s, run = some s → s.toNat < 0xF0
  idle : d = [] → st.2 = [] ∨ run = none ∧ ∃ j t, st.2 = j :: t ∧ (j = 0xF4 ∨ j = 0xF5 ∨ j = 0xF7)
  busy : d ≠ [] → Plain m ∧ st.2 ≠ [] ∧ st.2 ++ d = m

theorem running_voice {x : BitVec 8} : ∀ s, running x = some s → s.toNat < 0xF0 := by
  intro s h
  unfold running at h
  split at h
  · next hx => cases h; exact hx
  · cases h

theorem step_clock {k : BytesKind} {x : BitVec 8} (hx : 0xF8 ≤ x.toNat) (A : BytesKind.Alone (k, [x]))
    (st : State) : step st x = .ok ([(k, [x])], st) := by
  have h : BytesMessage.tryFrom [x] = .ok (k, [x]) := A.1
  unfold step
  rw [if_pos hx, h]

theorem step_noClock {x : BitVec 8} (hx : x = 0xF9 ∨ x = 0xFD) (st : State) :
    step st x = .ok ([], st) := by
  have h : ∃ e, BytesMessage.tryFrom [x] = .err e := by
    refine C11_bytes_unknown _ fun k lo hi y rest he hy hb => ?_
    cases hy
    have tbl : ∀ e ∈ bytesTable, ∀ n ∈ [0xF9, 0xFD], ¬ (e.2.1 ≤ n ∧ n < e.2.2) := by
      decide +kernel
    refine tbl _ he x.toNat ?_ hb
    rcases hx with rfl | rfl <;> decide
  obtain ⟨e, h⟩ := h
  unfold step
  rw [if_pos (by rcases hx with rfl | rfl <;> decide), h]

/-- The reader has one more byte of a message. -/
theorem step_of {st : State} {x : BitVec 8} {run : Option (BitVec 8)} {p m d : List (BitVec 8)}
    (hx : x.toNat < 0xF8) (hv : ∀ s, run = some s → s.toNat < 0xF0)
    (ht : take st x = (run, p)) (hm : Plain m) (hp : p ≠ []) (h : p ++ d = m) :
    ∃ g st', step st x = .ok (g, st') ∧ g.map Prod.snd = emit m d [] ∧
      (∀ y ∈ g, BytesKind.Alone y) ∧ Inv run m d st' := by
  obtain ⟨k, A⟩ := hm.alone
  have hl : ¬ 0xF8 ≤ x.toNat := by omega
  by_cases hd : d = []
  · subst hd
    rw [List.append_nil] at h
    subst h
    have A1 : BytesMessage.tryFrom p = .ok (k, p) := A.1
    refine ⟨[(k, p)], (run, []), ?_, rfl, fun y hy => by rw [List.mem_singleton.mp hy]; exact A,
      rfl, hv, fun _ => .inl rfl, fun hd => absurd rfl hd⟩
    unfold step
    rw [if_neg hl, ht, A1]
  · obtain ⟨e, he⟩ := alone_prefix A h hd
    refine ⟨[], (run, p), ?_, by rw [emit, if_neg hd]; rfl, (fun y hy => nomatch hy), rfl, hv,
      fun h => absurd h hd, fun _ => ⟨hm, hp, h⟩⟩
    unfold step
    rw [if_neg hl, ht]
    show (match BytesMessage.tryFrom p with | .ok m => _ | .err _ => _ | .panic => _) = _
    rw [he]

theorem step_err {st : State} {x : BitVec 8} {e : Error} (hx : x.toNat < 0xF8)
    (h : BytesMessage.tryFrom (take st x).2 = .err e) : step st x = .ok ([], take st x) := by
  unfold step
  rw [if_neg (by omega), h]

theorem take_status {st : State} {x : BitVec 8} (hx : 0x80 ≤ x.toNat)
    (h : x ≠ 0xF7 ∨ st.2.head? ≠ some 0xF0) : take st x = (running x, [x]) := by
  unfold take
  rw [if_neg (fun h' => h.elim (fun h => h h'.1) (fun h => h h'.2)), if_pos hx]

theorem take_data {r : Option (BitVec 8)} {y : BitVec 8} {p : List (BitVec 8)} {x : BitVec 8}
    (h : x.toNat < 0x80 ∨ x = 0xF7 ∧ y = 0xF0) : take (r, y :: p) x = (r, y :: p ++ [x]) := by
  unfold take
  by_cases h' : x = 0xF7 ∧ (y :: p).head? = some 0xF0
  · rw [if_pos h']
  · rw [if_neg h']
    rcases h with h | ⟨rfl, rfl⟩
    · rw [if_neg (by omega)]
      cases r <;> rfl
    · exact absurd ⟨rfl, rfl⟩ h'

theorem emit_append (m d : List (BitVec 8)) (out : List (List (BitVec 8))) :
    emit m d [] ++ out = emit m d out := by
  unfold emit
  split <;> rfl

/-- The reader follows the cable. -/
theorem On.read {run : Option (BitVec 8)} {m d w : List (BitVec 8)} {out : List (List (BitVec 8))}
    (C : On Plain run m d w out) : ∀ {st : State}, Inv run m d st →
    ∃ got st', Cable.read st w = .ok (got, st') ∧ got.map Prod.snd = out ∧
      ∀ y ∈ got, BytesKind.Alone y := by
  have go : ∀ {st st₁ : State} {x : BitVec 8} {w : List (BitVec 8)} {g : List (BytesKind × List (BitVec 8))}
      {out₁ out : List (List (BitVec 8))}, step st x = .ok (g, st₁) → g.map Prod.snd = out₁ →
      (∀ y ∈ g, BytesKind.Alone y) →
      (∃ got st', Cable.read st₁ w = .ok (got, st') ∧ got.map Prod.snd = out ∧
        ∀ y ∈ got, BytesKind.Alone y) →
      ∃ got st', Cable.read st (x :: w) = .ok (got, st') ∧ got.map Prod.snd = out₁ ++ out ∧
        ∀ y ∈ got, BytesKind.Alone y := by
    intro st st₁ x w g out₁ out h1 h2 h3 ⟨got, st', h4, h5, h6⟩
    refine ⟨g ++ got, st', ?_, by rw [List.map_append, h2, h5], fun y hy => ?_⟩
    · unfold Cable.read
      rw [h1]
      show Cable.read st₁ w >>= _ = _
      rw [h4]
      rfl
    · rcases List.mem_append.mp hy with hy | hy
      · exact h3 y hy
      · exact h6 y hy
  induction C with
  | stop =>
    intro st _
    exact ⟨[], st, rfl, rfl, fun _ h => nomatch h⟩
  | @clock run m d w out x hx hP _ ih =>
    intro st I
    obtain ⟨k, A⟩ := hP.alone
    exact go (out₁ := [[x]]) (step_clock hx A st) rfl
      (fun y hy => by rw [List.mem_singleton.mp hy]; exact A) (ih I)
  | @noClock run m d w out x hx _ ih =>
    intro st I
    exact go (out₁ := []) (step_noClock hx st) rfl (fun _ h => nomatch h) (ih I)
  | @status run m d w out s e hs hP _ ih =>
    intro st I
    obtain ⟨s', d', hsd, h80, hF7, -⟩ := hP.shape
    cases hsd
    obtain ⟨g, st₁, h1, h2, h3, h4⟩ := step_of (p := [s]) (d := e) hs running_voice
      (take_status h80 (.inl hF7)) hP
      (List.cons_ne_nil _ _) rfl
    rw [← emit_append]
    exact go h1 h2 h3 (ih h4)
  | @again m w out s x e hP _ ih =>
    intro st I
    obtain ⟨s', d', hsd, h80, hF7, hdat⟩ := hP.shape
    cases hsd
    obtain ⟨r, p⟩ := st
    have hr : r = some s := I.runs
    subst hr
    have hp : p = [] := by
      rcases I.idle rfl with h | ⟨h, -⟩
      · exact h
      · cases h
    subst hp
    have hx : x.toNat < 0x80 ∨ x = 0xF7 ∧ s = 0xF0 := hdat x List.mem_cons_self
    have hv := I.voice s rfl
    have hx : x.toNat < 0x80 := by
      rcases hx with h | ⟨-, rfl⟩
      · exact h
      · exact absurd hv (by decide)
    have ht : take (some s, []) x = (some s, [s, x]) := by
      unfold take
      rw [if_neg (by rintro ⟨-, h⟩; cases h), if_neg (by omega)]
    obtain ⟨g, st₁, h1, h2, h3, h4⟩ := step_of (d := e) (by omega) I.voice ht hP
      (List.cons_ne_nil _ _) rfl
    rw [← emit_append]
    exact go h1 h2 h3 (ih h4)
  | @byte run m w out x e _ ih =>
    intro st I
    obtain ⟨hm, hne, hpd⟩ := I.busy (List.cons_ne_nil _ _)
    obtain ⟨r, p⟩ := st
    have hr : r = run := I.runs
    subst hr
    cases p with
    | nil => exact absurd rfl hne
    | cons y p =>
      obtain ⟨s', d', hsd, h80, hF7, hdat⟩ := hm.shape
      have hpd : y :: p ++ x :: e = m := hpd
      rw [← hpd] at hsd
      cases hsd
      have hx := hdat x (List.mem_append_right _ List.mem_cons_self)
      have hx8 : x.toNat < 0xF8 := by
        rcases hx with h | ⟨rfl, -⟩
        · omega
        · decide
      obtain ⟨g, st₁, h1, h2, h3, h4⟩ := step_of (d := e) hx8 I.voice (take_data (r := r) (p := p) hx) hm
        (List.cons_ne_nil _ _) (by rw [List.append_assoc]; exact hpd)
      rw [← emit_append]
      exact go h1 h2 h3 (ih h4)
  | @undefined run m d w out x hx _ ih =>
    intro st I
    have h80 : 0x80 ≤ x.toNat ∧ x.toNat < 0xF8 ∧ running x = none ∧ (x = 0xF4 ∨ x = 0xF5 ∨ x = 0xF7) := by
      rcases hx with rfl | rfl | ⟨rfl, -⟩ <;> decide
    have ht : take st x = (none, [x]) := by
      rw [← h80.2.2.1]
      refine take_status h80.1 ?_
      rcases hx with rfl | rfl | ⟨rfl, hd⟩
      · exact .inl (by decide)
      · exact .inl (by decide)
      · refine .inr ?_
        rcases I.idle hd with h | ⟨-, j, t, h, hj⟩
        · rw [h]; decide
        · rw [h]
          rintro h
          have h : j = 0xF0 := Option.some.inj h
          subst h
          revert hj
          decide
    obtain ⟨e, he⟩ := junk_err (t := []) h80.2.2.2
    have h1 := step_err (st := st) h80.2.1 (e := e) (by rw [ht]; exact he)
    rw [ht] at h1
    exact go (out₁ := []) h1 rfl (fun _ h => nomatch h)
      (ih ⟨rfl, (fun _ h => nomatch h), fun _ => .inr ⟨rfl, x, [], rfl, h80.2.2.2⟩, fun h => absurd rfl h⟩)
  | @stray m w out x hx _ ih =>
    intro st I
    obtain ⟨r, p⟩ := st
    have hr : r = none := I.runs
    subst hr
    have key : ∃ p', take (none, p) x = (none, p') ∧ (∃ e, BytesMessage.tryFrom p' = .err e) ∧
        Inv none m [] (none, p') := by
      rcases I.idle rfl with h | ⟨-, j, t, h, hj⟩
      · have h : p = [] := h
        subst h
        refine ⟨[], ?_, empty_err, rfl, (fun _ h => nomatch h), fun _ => .inl rfl, fun h => absurd rfl h⟩
        unfold take
        rw [if_neg (by rintro ⟨-, h⟩; cases h), if_neg (by omega)]
      · have h : p = j :: t := h
        subst h
        exact ⟨_, take_data (.inl hx), junk_err hj, rfl, (fun _ h => nomatch h),
          fun _ => .inr ⟨rfl, j, _, rfl, hj⟩, fun h => absurd rfl h⟩
    obtain ⟨p', k1, ⟨e, k2⟩, k3⟩ := key
    have h1 := step_err (st := (none, p)) (x := x) (by omega) (e := e) (by rw [k1]; exact k2)
    rw [k1] at h1
    exact go (out₁ := []) h1 rfl (fun _ h => nomatch h) (ih k3)

end Midi2.Cable
