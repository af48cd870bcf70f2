import Verif.Lemmas.Pieces
import Verif.Lemmas.TextWire

/-! # Lemmas: messages of which a part has arrived -/

namespace Midi2

/-- A message ends with its last packet and not before. -/
theorem seqOk_take {fs : List Nat} (h : SeqOk fs) (c : Nat) : SeqOk (fs.take c) ↔ fs.length ≤ c := by
  constructor
  · intro h'
    have h2 := h
    rw [← List.take_append_drop c fs] at h2
    have := (seqOk_append h').mp h2
    exact List.drop_eq_nil_iff.mp this
  · intro hc
    rw [List.take_of_length_le hc]; exact h

theorem packetHeads_prefix {k : Nat} (hk : 0 < k) (m : List (BitVec 32)) (n : Nat) :
    packetHeads k (m.take n) = (packetHeads k m).take ((n + k - 1) / k) := by
  have hc : ∀ j, j < (n + k - 1) / k ↔ k * j < n := by
    intro j
    rw [Nat.lt_iff_add_one_le, Nat.le_div_iff_mul_le hk, Nat.succ_mul, Nat.mul_comm]
    omega
  apply List.ext_getElem?
  intro j
  rw [Sx.packetHeads_getElem? _ _ hk, List.getElem?_take, List.getElem?_take]
  by_cases h : k * j < n
  · rw [if_pos h, if_pos ((hc j).mpr h), Sx.packetHeads_getElem? _ _ hk]
  · rw [if_neg h, if_neg (fun h' => h ((hc j).mp h'))]

theorem typedRun_take {k : Nat} (hk : 0 < k) {ty : BitVec 4} {m : Buf .ump}
    (hm : m.length = k * (typedRun k ty m).length) (n : Nat) :
    typedRun k ty (m.take n) = (typedRun k ty m).take ((n + k - 1) / k) := by
  have hall : typedRun k ty m = packetHeads k m := by
    have hpre : typedRun k ty m <+: packetHeads k m := List.takeWhile_prefix _
    refine hpre.eq_of_length ?_
    refine Nat.le_antisymm hpre.length_le ?_
    unfold packetHeads
    rw [List.length_map, List.length_range]
    refine Nat.le_of_lt_succ ((Nat.div_lt_iff_lt_mul hk).mpr ?_)
    rw [Nat.succ_mul, Nat.mul_comm]; omega
  have hp : ∀ w ∈ packetHeads k m, decide (field w 0 4 = ty.toNat) = true := by
    intro w hw
    rw [← hall] at hw
    exact List.all_eq_true.mp List.all_takeWhile w hw
  rw [hall]
  unfold typedRun
  rw [packetHeads_prefix hk]
  have := List.takeWhile_append_of_pos (l₂ := []) (p := fun w => decide (field w 0 4 = ty.toNat))
    (l₁ := (packetHeads k m).take ((n + k - 1) / k)) fun w hw => hp w (List.mem_of_mem_take hw)
  simpa using this

/-- The run of the first words of a message is complete if they reach its last packet. -/
theorem run_take_seqOk {k : Nat} (hk : 0 < k) {ty : BitVec 4} {m : Buf .ump}
    (hm : m.length = k * (typedRun k ty m).length) {f : BitVec 32 → Nat}
    (hs : SeqOk ((typedRun k ty m).map f)) (n : Nat) :
    (SeqOk ((typedRun k ty (m.take n)).map f) ↔ m.length < n + k) ∧
    (m.length < n + k → typedRun k ty (m.take n) = typedRun k ty m) := by
  have hc : (typedRun k ty m).length ≤ (n + k - 1) / k ↔ m.length < n + k := by
    rw [Nat.le_div_iff_mul_le hk, Nat.mul_comm, ← hm]
    omega
  rw [typedRun_take hk hm, List.map_take, seqOk_take hs, List.length_map]
  exact ⟨hc, fun h => List.take_of_length_le (hc.mpr h)⟩

theorem fieldAt_take {m : List (BitVec 32)} {n i : Nat} (h : i < n) (p w : Nat) :
    fieldAt (m.take n) i p w = fieldAt m i p w := by
  unfold fieldAt
  rw [List.getElem?_take, if_pos h]

theorem Sx.accepts_take {k : Sx} {m : Buf .ump} (A : k.layout.Accepts m)
    (hm : m.length = k.layout.words * (k.layout.run m).length) {n : Nat} (hn : n < m.length) :
    k.layout.Accepts (m.take n) ↔ UmpKind.CutInLast m n (.sysex k) := by
  have hk : 0 < k.layout.words := by rw [words_eq]; exact k.stride_pos
  have hl : (m.take n).length = n := by rw [List.length_take]; omega
  have hst := A.statuses
  rw [k.run_typed] at hst
  rw [k.run_typed, words_eq] at hm
  obtain ⟨r1, r2⟩ := run_take_seqOk k.stride_pos hm hst n
  constructor
  · intro B
    have h1 := B.len
    have h2 := B.statuses
    rw [k.run_typed, r1] at h2
    rw [hl] at h1
    exact ⟨h1, by rw [words_eq]; exact h2⟩
  · rintro ⟨h1, h2⟩
    rw [words_eq] at h2
    have hr : k.layout.run (m.take n) = k.layout.run m := by
      rw [k.run_typed, k.run_typed]; exact r2 h2
    have hlt : ∀ j, k.layout.words * (j + 1) ≤ n → k.layout.words * j < n := fun j hj => by
      rw [Nat.mul_succ] at hj; omega
    refine ⟨by rw [hl]; exact h1, by rw [hr]; exact A.statuses, fun j hj => ?_, fun j hj hj' => ?_,
      fun he j hj hj' => ?_⟩
    · rw [hl] at hj
      rw [fieldAt_take (hlt j hj)]
      exact A.sizes j (by omega)
    · rw [hl] at hj'
      rw [hr] at hj
      rw [fieldAt_take (hlt j hj'), fieldAt_take (by omega)]
      exact A.groups j hj (by omega)
    · rw [hl] at hj'
      rw [hr] at hj
      rw [fieldAt_take (hlt j hj'), fieldAt_take (by omega)]
      exact A.streams he j hj (by omega)

theorem FlexText.accepts_take {t : FlexText} {m : Buf .ump} (A : t.Accepts m)
    (hm : m.length = 4 * (FlexText.run m).length) {n : Nat} (hn : n < m.length) :
    t.Accepts (m.take n) ↔ UmpKind.CutInLast m n (.flexText t) := by
  have hl : (m.take n).length = n := by rw [List.length_take]; omega
  obtain ⟨r1, r2⟩ := run_take_seqOk (k := 4) (ty := 0xD) (by omega) hm (f := fun w => field w 8 2)
    A.formats n
  constructor
  · intro B
    have h1 := B.len
    rw [hl] at h1
    exact ⟨h1, r1.mp B.formats, B.text⟩
  · rintro ⟨h1, h2, h3⟩
    have hr : FlexText.run (m.take n) = FlexText.run m := r2 h2
    refine ⟨by rw [hl]; exact h1, by rw [hr]; exact A.formats, fun j hj hj' => ?_, fun j hj => ?_,
      fun j hj => ?_, h3⟩
    · rw [hl] at hj'
      rw [hr] at hj
      rw [fieldAt_take (by omega), fieldAt_take (by omega)]
      exact A.groups j hj (by omega)
    · rw [hl] at hj
      rw [fieldAt_take (by omega)]
      exact A.banks j (by omega)
    · rw [hl] at hj
      rw [fieldAt_take (by omega)]
      exact A.statuses j (by omega)

theorem StreamText.accepts_take {t : StreamText} {m : Buf .ump} (A : t.Accepts m)
    (hm : m.length = 4 * (StreamText.run m).length) {n : Nat} (hn : n < m.length) :
    t.Accepts (m.take n) ↔ UmpKind.CutInLast m n (.streamText t) := by
  have hl : (m.take n).length = n := by rw [List.length_take]; omega
  obtain ⟨r1, r2⟩ := run_take_seqOk (k := 4) (ty := 0xF) (by omega) hm (f := fun w => field w 4 2)
    A.formats n
  constructor
  · intro B
    have h1 := B.len
    rw [hl] at h1
    exact ⟨h1, r1.mp B.formats, B.text⟩
  · rintro ⟨h1, h2, h3⟩
    have hr : StreamText.run (m.take n) = StreamText.run m := r2 h2
    refine ⟨by rw [hl]; exact h1, by rw [hr]; exact A.formats, fun j hj => ?_, fun ho j hj => ?_, h3⟩
    · rw [hl] at hj
      rw [fieldAt_take (by omega)]
      exact A.statuses j (by omega)
    · rw [hl] at hj
      rw [fieldAt_take (by omega), fieldAt_take (by omega)]
      exact A.blocks ho j (by omega)

/-- The variant depends on the first word. -/
theorem UmpMessage.same_front {m b : Buf .ump} {k : UmpKind}
    (hok : UmpMessage.tryFrom m = .ok (k, m)) (h0 : ∀ p w, fieldAt b 0 p w = fieldAt m 0 p w) :
    (k.tryFrom b = .ok b → UmpMessage.tryFrom b = .ok (k, b)) ∧
    (k.tryFrom b ≠ .ok b → ∃ e, UmpMessage.tryFrom b = .err e) := by
  obtain ⟨_, hk, h, he, ho⟩ := C10_ump_variant m m k hok
  have hof : ∀ h : Header, h.Of b ↔ h.Of m := fun h => by
    unfold Header.Of
    rw [h0, h0]
  constructor
  · intro hp
    obtain ⟨h', hc', ho', _⟩ := UmpMessage.tryFrom_iff.mp hok
    exact UmpMessage.tryFrom_iff.mpr ⟨h', hc', (hof h').mpr ho', hp⟩
  · intro hp
    rcases (C05_ump_enums_total b).1 with ⟨k', hk'⟩ | he'
    · obtain ⟨_, hp', h', he', ho'⟩ := C10_ump_variant _ _ k' hk'
      have ho' := (hof h').mp ho'
      have inj : ∀ e ∈ umpTable, ∀ e' ∈ umpTable, e.2.type = e'.2.type →
          e.2.pos = e'.2.pos ∧ e.2.width = e'.2.width ∧ (e.2.code = e'.2.code → e.1 = e'.1) := by
        decide +kernel
      have t := Option.some.inj (ho.1.symm.trans ho'.1)
      obtain ⟨i1, i2, i3⟩ := inj _ he _ he' t
      have c2 := ho'.2
      simp only at i1 i2
      rw [← i1, ← i2] at c2
      have hkk : k = k' := i3 (Option.some.inj (ho.2.symm.trans c2))
      subst hkk
      exact absurd hp' hp
    · exact he'

/-- A complete message in a slice of just its length. -/
theorem ump_own_length {m : Buf .ump} {k : UmpKind}
    (hok : UmpMessage.tryFrom m = .ok (k, m)) (hd : k.data m = .ok m) :
    match k with
    | .fixed d => m.length = d.umpSize
    | .sysex s => m.length = s.layout.words * (s.layout.run m).length
    | .flexText _ => m.length = 4 * (FlexText.run m).length
    | .streamText _ => m.length = 4 * (StreamText.run m).length := by
  obtain ⟨_, hk, h, he, ho⟩ := C10_ump_variant m m k hok
  have hcomp : k.Complete m := Classical.byContradiction fun hc => by
    have := ((C06_ump_message_exactly m m k hok).2 hc).1
    rw [show UmpMessage.data (k, m) = k.data m from rfl, hd] at this
    cases this
  cases k with
  | fixed d =>
    have hl : d.umpSize ≤ m.length := ((tryFrom_iff d .ump m).mp hk).1
    have e : d.data .ump m = .ok m := hd
    rw [data_ok (m := .ump) hl] at e
    have := congrArg List.length (Res.ok.inj e)
    rw [List.length_take] at this
    have : min d.umpSize m.length = m.length := this
    show m.length = d.umpSize
    omega
  | sysex s =>
    obtain ⟨d, _, h1, h2, _⟩ := C33_sysex_packets s m hk hcomp
    rw [show s.data m = .ok m from hd] at h1
    cases h1
    have := congrArg List.length h2
    rw [List.length_take] at this
    have hc : s.layout.words * (s.layout.run m).length ≤ m.length := hcomp
    show m.length = s.layout.words * (s.layout.run m).length
    omega
  | flexText t =>
    obtain ⟨d, _, h1, h2, _⟩ := C06_flex_text_data_partial t m hk hcomp
    rw [show FlexText.data m = .ok m from hd] at h1
    cases h1
    have := congrArg List.length h2
    rw [List.length_take] at this
    have hc : 4 * (FlexText.run m).length ≤ m.length := hcomp
    show m.length = 4 * (FlexText.run m).length
    omega
  | streamText t =>
    have ht := (table_other _ he).1
    obtain ⟨d, _, h1, h2, _⟩ := C06_stream_text_data_partial t ht m hk hcomp
    rw [show StreamText.data m = .ok m from hd] at h1
    cases h1
    have := congrArg List.length h2
    rw [List.length_take] at this
    have hc : 4 * (StreamText.run m).length ≤ m.length := hcomp
    show m.length = 4 * (StreamText.run m).length
    omega

/-- What is on the reader's table: nothing, or the first words of the next message. -/
def AtFront (todo : List (UmpKind × Buf .ump)) (r : Buf .ump) : Prop :=
  (todo = [] ∧ r = []) ∨ ∃ m post n, todo = m :: post ∧ n < m.2.length ∧ r = m.2.take n

theorem split_messages : ∀ (ms : List (UmpKind × Buf .ump)) (w : Buf .ump),
    w <+: (ms.map Prod.snd).flatten →
    ∃ done todo r, ms = done ++ todo ∧ w = (done.map Prod.snd).flatten ++ r ∧ AtFront todo r
  | [], w, h => ⟨[], [], [], rfl, List.prefix_nil.mp h, .inl ⟨rfl, rfl⟩⟩
  | m :: ms, w, h => by
    rw [List.map_cons, List.flatten_cons] at h
    by_cases hl : w.length < m.2.length
    · refine ⟨[], m :: ms, w, rfl, rfl, .inr ⟨m, ms, w.length, rfl, hl, ?_⟩⟩
      obtain ⟨t, ht⟩ := h
      have := congrArg (List.take w.length) ht
      rw [List.take_left, List.take_append_of_le_length (by omega)] at this
      exact this
    · obtain ⟨t, ht⟩ := h
      have h1 := congrArg (List.take m.2.length) ht
      rw [List.take_left, List.take_append_of_le_length (by omega)] at h1
      have h2 := congrArg (List.drop m.2.length) ht
      rw [List.drop_left, List.drop_append_of_le_length (by omega)] at h2
      obtain ⟨done, todo, r, e1, e2, e3⟩ := split_messages ms (w.drop m.2.length) ⟨t, h2⟩
      refine ⟨m :: done, todo, r, by rw [e1]; rfl, ?_, e3⟩
      rw [List.map_cons, List.flatten_cons, List.append_assoc, ← e2]
      have := List.take_append_drop m.2.length w
      rw [h1] at this
      exact this.symm

theorem split_unique : ∀ {done done' : List (UmpKind × Buf .ump)} {m m' : UmpKind × Buf .ump}
    {post post' : List (UmpKind × Buf .ump)} {n n' : Nat},
    done ++ m :: post = done' ++ m' :: post' → n < m.2.length → n' < m'.2.length →
    (done.map Prod.snd).flatten ++ m.2.take n = (done'.map Prod.snd).flatten ++ m'.2.take n' →
    done = done' ∧ m = m' ∧ n = n'
  | [], [], m, m', post, post', n, n', h, hn, hn', hw => by
    obtain ⟨rfl, -⟩ := List.cons.inj h
    have := congrArg List.length hw
    simp only [List.map_nil, List.flatten_nil, List.nil_append, List.length_take] at this
    exact ⟨rfl, rfl, by omega⟩
  | [], x :: done', m, m', post, post', n, n', h, hn, hn', hw => by
    obtain ⟨rfl, -⟩ := List.cons.inj h
    have := congrArg List.length hw
    simp only [List.map_nil, List.map_cons, List.flatten_cons, List.flatten_nil, List.nil_append,
      List.length_take, List.length_append] at this
    omega
  | x :: done, [], m, m', post, post', n, n', h, hn, hn', hw => by
    obtain ⟨rfl, -⟩ := List.cons.inj h
    have := congrArg List.length hw
    simp only [List.map_nil, List.map_cons, List.flatten_cons, List.flatten_nil, List.nil_append,
      List.length_take, List.length_append] at this
    omega
  | x :: done, y :: done', m, m', post, post', n, n', h, hn, hn', hw => by
    obtain ⟨rfl, hx⟩ := List.cons.inj h
    rw [List.map_cons, List.map_cons, List.flatten_cons, List.flatten_cons, List.append_assoc,
      List.append_assoc] at hw
    obtain ⟨rfl, h2, h3⟩ := split_unique hx hn hn'
      (List.append_cancel_left hw)
    exact ⟨rfl, h2, h3⟩

/-- The loop follows the messages, whatever it does with the rest. -/
theorem takeMessages_of {todo : List (UmpKind × Buf .ump)} {r : Buf .ump}
    {x : Res (List (UmpKind × Buf .ump) × Buf .ump)} (hr : r <+: (todo.map Prod.snd).flatten)
    (hx : ∀ n, r.length ≤ n → takeMessages n r = x) :
    ∀ (done : List (UmpKind × Buf .ump)),
      (∀ m ∈ done, UmpMessage.tryFrom m.2 = .ok m ∧ m.1.data m.2 = .ok m.2) →
      (∀ pre m post c, done ++ todo = pre ++ m :: post → c <+: (post.map Prod.snd).flatten →
        m.1.Allows m.2 c) →
      ∀ n, ((done.map Prod.snd).flatten ++ r).length ≤ n →
      takeMessages n ((done.map Prod.snd).flatten ++ r) = x >>= fun y => .ok (done ++ y.1, y.2)
  | [], _, _, n, hn => by
    show takeMessages n r = _
    rw [hx n hn]
    cases x <;> rfl
  | m :: done, hms, ht, n, hn => by
    obtain ⟨h1, h2⟩ := hms m List.mem_cons_self
    have hm : 0 < m.2.length := by
      refine List.length_pos_iff.mpr fun e => ?_
      rw [e] at h1
      cases h1
    rw [List.map_cons, List.flatten_cons, List.append_assoc] at hn ⊢
    rw [List.length_append] at hn
    obtain ⟨n, rfl⟩ : ∃ j, n = j + 1 := ⟨n - 1, by omega⟩
    have hc : (done.map Prod.snd).flatten ++ r <+: ((done ++ todo).map Prod.snd).flatten := by
      rw [List.map_append, List.flatten_append]
      exact List.prefix_append_right_inj _ |>.mpr hr
    obtain ⟨a1, a2⟩ := (C12_ump_message_exactly m.2 m.1 h1 h2 _).1
      (ht [] m (done ++ todo) _ rfl hc)
    unfold takeMessages
    rw [a1]
    show (m.1.data (m.2 ++ ((done.map Prod.snd).flatten ++ r)) >>= fun d => _) = _
    rw [a2, Res.ok_bind, List.drop_left, takeMessages_of hr hx done
      (fun q hq => hms q (List.mem_cons_of_mem _ hq))
      (fun pre q post c e => ht (m :: pre) q post c (by rw [List.cons_append, e]; rfl)) n (by omega)]
    cases x <;> rfl

end Midi2
