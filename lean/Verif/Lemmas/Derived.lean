import Verif.Model.Derived
import Verif.Spec.Derived
import Verif.Lemmas.Lens
import Verif.Lemmas.Construct

/-! The derived `Debug` and `PartialEq`. -/

namespace Midi2

theorem hexDigit_eq {x : Nat} (h : x < 16) : hexDigit x = hexAlphabet[x]?.getD '?' := by
  have : ∀ x : Fin 16, hexDigit x.val = hexAlphabet[x.val]?.getD '?' := by decide
  exact this ⟨x, h⟩

theorem hexFixed_length (k x : Nat) : (hexFixed k x).length = k := by
  induction k generalizing x with
  | zero => rfl
  | succ k ih => simp [hexFixed, ih]

theorem hexFixed_zero (k : Nat) : hexFixed k 0 = List.replicate k '0' := by
  induction k with
  | zero => rfl
  | succ k ih =>
    rw [List.replicate_succ', ← ih]; rfl

/-- The digits, padded with zeros, are the number in a fixed number of digits. -/
theorem hexDigits_eq (fuel : Nat) (x k : Nat) (acc : List Char) (hx : x < 16 ^ k) (hk : 0 < k)
    (hf : k ≤ fuel) :
    ∃ ds, hexDigits fuel x acc = ds ++ acc ∧ ds.length ≤ k ∧
      List.replicate (k - ds.length) '0' ++ ds = hexFixed k x := by
  induction fuel generalizing x k acc with
  | zero => omega
  | succ fuel ih =>
    obtain ⟨k, rfl⟩ : ∃ j, k = j + 1 := ⟨k - 1, by omega⟩
    simp only [hexDigits]
    by_cases h0 : x / 16 = 0
    · rw [if_pos h0]
      refine ⟨[hexDigit (x % 16)], rfl, by simp, ?_⟩
      simp only [hexFixed, h0, hexFixed_zero, List.length_singleton, Nat.add_sub_cancel]
      rw [hexDigit_eq (Nat.mod_lt _ (by omega))]
    · rw [if_neg h0]
      have hlt : x / 16 < 16 ^ k := by
        rw [Nat.pow_succ] at hx
        omega
      have hk' : 0 < k := by
        cases k with
        | zero => simp only [Nat.pow_zero] at hlt; omega
        | succ k => omega
      obtain ⟨ds, e1, e2, e3⟩ := ih (x / 16) k (hexDigit (x % 16) :: acc) hlt hk' (by omega)
      refine ⟨ds ++ [hexDigit (x % 16)], ?_, by simp; omega, ?_⟩
      · rw [e1]; simp
      · simp only [hexFixed, ← e3, List.length_append, List.length_singleton]
        rw [hexDigit_eq (Nat.mod_lt _ (by omega)), List.append_assoc,
          show k + 1 - (ds.length + 1) = k - ds.length by omega]

theorem hexPadded_eq {k x : Nat} (hk : 0 < k) (hk' : k ≤ 16) (hx : x < 16 ^ k) :
    hexPadded (k + 2) x = ['0', 'x'] ++ hexFixed k x := by
  obtain ⟨ds, e1, e2, e3⟩ := hexDigits_eq 16 x k [] hx hk hk'
  simp only [hexPadded, e1, List.append_nil, ← e3]
  rw [show k + 2 - (2 + ds.length) = k - ds.length by omega, List.append_assoc]

theorem debugUnits_eq {k n : Nat} (hk : 0 < k) (hk' : k ≤ 16) (hn : 2 ^ n ≤ 16 ^ k)
    (b : List (BitVec n)) :
    debugUnits (k + 2) b = commaSeparated (b.map fun v => ['0', 'x'] ++ hexFixed k v.toNat) := by
  induction b with
  | nil => rfl
  | cons v rest ih =>
    have hv : v.toNat < 16 ^ k := Nat.lt_of_lt_of_le v.isLt hn
    cases rest with
    | nil => simp [debugUnits, commaSeparated, hexPadded_eq hk hk' hv]
    | cons u rest =>
      simp only [debugUnits, List.isEmpty_cons, Bool.false_eq_true, if_false,
        List.map_cons, commaSeparated] at ih ⊢
      rw [hexPadded_eq hk hk' hv, ih]

theorem alphabet_inj {x y : Nat} (hx : x < 16) (hy : y < 16)
    (h : hexAlphabet[x]?.getD '?' = hexAlphabet[y]?.getD '?') : x = y := by
  have : ∀ x y : Fin 16, hexAlphabet[x.val]?.getD '?' = hexAlphabet[y.val]?.getD '?' → x = y := by
    decide
  exact congrArg Fin.val (this ⟨x, hx⟩ ⟨y, hy⟩ h)

theorem hexFixed_inj {k x y : Nat} (hx : x < 16 ^ k) (hy : y < 16 ^ k)
    (h : hexFixed k x = hexFixed k y) : x = y := by
  induction k generalizing x y with
  | zero => simp only [Nat.pow_zero] at hx hy; omega
  | succ k ih =>
    simp only [hexFixed] at h
    obtain ⟨h1, h2⟩ := List.append_inj h (by simp only [hexFixed_length])
    rw [Nat.pow_succ] at hx hy
    have e1 := ih (by omega) (by omega) h1
    have e2 := alphabet_inj (Nat.mod_lt _ (by omega)) (Nat.mod_lt _ (by omega))
      (List.cons.inj h2).1
    omega

theorem commaSeparated_inj {k : Nat} {l l' : List (List Char)} (hl : ∀ t ∈ l, t.length = k + 1)
    (hl' : ∀ t ∈ l', t.length = k + 1) (h : commaSeparated l = commaSeparated l') : l = l' := by
  induction l generalizing l' with
  | nil =>
    match l' with
    | [] => rfl
    | [t] =>
      have := hl' t (by simp)
      simp only [commaSeparated] at h
      rw [← h] at this; simp at this
    | t :: u :: r =>
      have := congrArg List.length h
      simp [commaSeparated] at this
  | cons t l ih =>
    have ht := hl t (by simp)
    match l' with
    | [] =>
      have := congrArg List.length h
      cases l <;> simp [commaSeparated] at this
      rw [this] at ht; simp at ht
    | t' :: l' =>
      have ht' := hl' t' (by simp)
      match l, l' with
      | [], [] => simpa [commaSeparated] using h
      | [], u' :: r' =>
        have := congrArg List.length h
        simp only [commaSeparated, List.length_append, List.length_cons, List.length_nil] at this
        omega
      | u :: r, [] =>
        have := congrArg List.length h
        simp only [commaSeparated, List.length_append, List.length_cons, List.length_nil] at this
        omega
      | u :: r, u' :: r' =>
        simp only [commaSeparated, List.append_assoc] at h
        obtain ⟨h1, h2⟩ := List.append_inj h (by omega)
        obtain ⟨_, h3⟩ := List.append_inj h2 rfl
        rw [h1, ih (fun x hx => hl x (List.mem_cons_of_mem _ hx))
          (fun x hx => hl' x (List.mem_cons_of_mem _ hx)) h3]

/-- The calls that write back what the getters return, apart from a missing attribute. -/
def fillCalls (m : Fmt) (b : Buf m) : List (String × Fld) → List SetCall
  | [] => []
  | (n, f) :: ps =>
    match f.read m b with
    | .ok v =>
      if f.accessible m && !(SetCall.clearsAttribute ⟨n, f, v⟩) then ⟨n, f, v⟩ :: fillCalls m b ps
      else fillCalls m b ps
    | _ => fillCalls m b ps

theorem mem_fillCalls {m : Fmt} {b : Buf m} {ps : List (String × Fld)} {c : SetCall} :
    c ∈ fillCalls m b ps ↔ (c.name, c.fld) ∈ ps ∧ c.fld.read m b = .ok c.val ∧
      c.fld.accessible m = true ∧ c.clearsAttribute = false := by
  obtain ⟨n', f', v'⟩ := c
  induction ps with
  | nil => simp [fillCalls]
  | cons p ps ih =>
    obtain ⟨n, f⟩ := p
    simp only [fillCalls]
    cases e : f.read m b with
    | ok v =>
      simp only
      split
      · next hc =>
        simp only [Bool.and_eq_true, Bool.not_eq_true'] at hc
        rw [List.mem_cons, ih, List.mem_cons]
        constructor
        · rintro (h | ⟨h1, h2⟩)
          · cases h
            exact ⟨.inl rfl, e, hc⟩
          · exact ⟨.inr h1, h2⟩
        · rintro ⟨h1 | h1, h2, h3⟩
          · cases h1
            have : v = v' := Res.ok.inj (e.symm.trans h2)
            subst this
            exact .inl rfl
          · exact .inr ⟨h1, h2, h3⟩
      · next hc =>
        rw [ih, List.mem_cons]
        refine ⟨fun ⟨h1, h2⟩ => ⟨.inr h1, h2⟩, ?_⟩
        rintro ⟨h1 | h1, h2, h3⟩
        · cases h1
          have : v = v' := Res.ok.inj (e.symm.trans h2)
          subst this
          exact absurd (by rw [h3.1, h3.2]; rfl) hc
        · exact ⟨h1, h2, h3⟩
    | err x =>
      simp only
      rw [ih, List.mem_cons]
      refine ⟨fun ⟨h1, h2⟩ => ⟨.inr h1, h2⟩, ?_⟩
      rintro ⟨h1 | h1, h2, h3⟩
      · cases h1
        exact absurd (e.symm.trans h2) (by simp)
      · exact ⟨h1, h2, h3⟩
    | panic =>
      simp only
      rw [ih, List.mem_cons]
      refine ⟨fun ⟨h1, h2⟩ => ⟨.inr h1, h2⟩, ?_⟩
      rintro ⟨h1 | h1, h2, h3⟩
      · cases h1
        exact absurd (e.symm.trans h2) (by simp)
      · exact ⟨h1, h2, h3⟩

theorem runSetters_idle {m : Fmt} {b : Buf m} {cs : List SetCall}
    (h : ∀ c ∈ cs, c.fld.write m b c.val = .ok b) : runSetters m cs b = .ok b := by
  induction cs with
  | nil => rfl
  | cons c cs ih =>
    simp only [runSetters, h c List.mem_cons_self, Res.ok_bind]
    exact ih fun c hc => h c (List.mem_cons_of_mem _ hc)

theorem lastSet_split {cs : List SetCall} {n : String} {c : SetCall} (h : lastSet cs n = some c) :
    c ∈ cs ∧ c.name = n ∧ ∃ pre post, cs = pre ++ c :: post ∧ ∀ x ∈ post, x.name ≠ n := by
  unfold lastSet at h
  rw [List.find?_eq_some_iff_append] at h
  obtain ⟨h1, as, bs, h2, h3⟩ := h
  have hn : c.name = n := eq_of_beq h1
  have : cs = bs.reverse ++ c :: as.reverse := by
    have := congrArg List.reverse h2
    simpa using this
  refine ⟨by rw [this]; simp, hn, bs.reverse, as.reverse, this, ?_⟩
  intro x hx
  have := h3 x (by simpa using hx)
  simpa using this

theorem lastSet_none {cs : List SetCall} {n : String} (h : lastSet cs n = none) :
    ∀ c ∈ cs, c.name ≠ n := by
  intro c hc e
  have := List.find?_eq_none.mp h c (by simpa using hc)
  simp [e] at this

/-- If writing back changes nothing, two histories after which all getters agree leave the
same buffer. -/
theorem history_same_values {d : MsgDesc} {m : Fmt} (hn : (d.props.map (·.1)).Nodup) {b : Buf m}
    (hg : d.Good m b)
    (hdet : ∀ c : SetCall, c.legal d m → c.clearsAttribute = false → ∀ x y x' y' : Buf m,
      x.length = b.length → y.length = b.length → c.fld.write m x c.val = .ok x' →
      c.fld.write m y c.val = .ok y' → SameOn (c.fld.bits m) x' y')
    (hset : ∀ n f, (n, f) ∈ d.props → f.accessible m = true →
      ∃ v, f.read m b = .ok v ∧ f.faithful v = true ∧ f.write m b v = .ok b)
    {cs cs' : List SetCall} (hl : ∀ c ∈ cs, c.legal d m) (hl' : ∀ c ∈ cs', c.legal d m)
    (hna : ∀ n c, lastSet cs n = some c → c.clearsAttribute = false)
    (hna' : ∀ n c, lastSet cs' n = some c → c.clearsAttribute = false)
    {x y : Buf m} (hx : runSetters m cs b = .ok x) (hy : runSetters m cs' b = .ok y)
    (hs : ∀ n f, (n, f) ∈ d.props → f.accessible m = true → f.read m x = f.read m y) : x = y := by
  have hfill : ∀ c ∈ fillCalls m b d.props, c.legal d m ∧ c.fld.write m b c.val = .ok b := by
    intro c hc
    obtain ⟨h1, h2, h3, _⟩ := mem_fillCalls.mp hc
    obtain ⟨v, e1, e2, e3⟩ := hset _ _ h1 h3
    have : v = c.val := Res.ok.inj (e1.symm.trans h2)
    subst this
    exact ⟨⟨h1, h3, e2⟩, e3⟩
  have hrun : ∀ l, runSetters m (fillCalls m b d.props ++ l) b = runSetters m l b := by
    intro l
    rw [runSetters_append, runSetters_idle fun c hc => (hfill c hc).2]; rfl
  have hleg : ∀ l : List SetCall, (∀ c ∈ l, c.legal d m) →
      ∀ c ∈ fillCalls m b d.props ++ l, c.legal d m := by
    intro l hl c hc
    rcases List.mem_append.mp hc with h | h
    · exact (hfill c h).1
    · exact hl c h
  have hor : ∀ (l : List SetCall) n, lastSet (fillCalls m b d.props ++ l) n =
      (lastSet l n).or (lastSet (fillCalls m b d.props) n) := by
    intro l n
    unfold lastSet
    rw [List.reverse_append, List.find?_append]
  have hclear : ∀ l : List SetCall, (∀ n c, lastSet l n = some c → c.clearsAttribute = false) →
      ∀ n c, lastSet (fillCalls m b d.props ++ l) n = some c → c.clearsAttribute = false := by
    intro l hna n c hc
    rw [hor] at hc
    cases e : lastSet l n with
    | some z => rw [e] at hc; cases hc; exact hna n _ e
    | none =>
      rw [e] at hc
      have hc : lastSet (fillCalls m b d.props) n = some c := hc
      exact (mem_fillCalls.mp (lastSet_split hc).1).2.2.2
  -- what the getters return after a filled history
  have hread : ∀ (l : List SetCall) (z : Buf m), (∀ c ∈ l, c.legal d m) →
      runSetters m l b = .ok z → ∀ n c, lastSet (fillCalls m b d.props ++ l) n = some c →
      c.fld.read m z = .ok c.val ∧ c.name = n ∧ (n, c.fld) ∈ d.props ∧
        c.fld.accessible m = true := by
    intro l z hl hz n c hc
    obtain ⟨z', e1, _, _, e4, _⟩ := setter_history hn (fillCalls m b d.props ++ l) hg (hleg l hl)
    rw [hrun, hz] at e1
    cases e1
    obtain ⟨h1, h2, pre, post, h3, h4⟩ := lastSet_split hc
    have hlc := hleg l hl c h1
    exact ⟨e4 pre c.name c.fld c.val post h3 (by rw [h2]; exact h4), h2, h2 ▸ hlc.1, hlc.2.1⟩
  -- a property that a filled history never sets is a missing attribute
  have hunset : ∀ (l : List SetCall) (z : Buf m), (∀ c ∈ l, c.legal d m) →
      runSetters m l b = .ok z → ∀ n f, (n, f) ∈ d.props → f.accessible m = true →
      lastSet (fillCalls m b d.props ++ l) n = none →
      ∃ v, f.read m z = .ok v ∧ SetCall.clearsAttribute ⟨n, f, v⟩ = true := by
    intro l z hl hz n f hf ha hc
    obtain ⟨z', e1, _, _, _, e5⟩ := setter_history hn (fillCalls m b d.props ++ l) hg (hleg l hl)
    rw [hrun, hz] at e1
    cases e1
    have hnone := lastSet_none hc
    obtain ⟨v, r1, _, _⟩ := hset n f hf ha
    refine ⟨v, by rw [e5 n f hf hnone, r1], ?_⟩
    cases hcl : SetCall.clearsAttribute ⟨n, f, v⟩ with
    | true => rfl
    | false =>
      exact absurd rfl (hnone ⟨n, f, v⟩
        (List.mem_append_left _ (mem_fillCalls.mpr ⟨hf, r1, ha, hcl⟩)))
  have hlast : ∀ n, lastSet (fillCalls m b d.props ++ cs) n =
      lastSet (fillCalls m b d.props ++ cs') n := by
    intro n
    cases e : lastSet (fillCalls m b d.props ++ cs) n with
    | some c =>
      obtain ⟨r1, r2, r3, r4⟩ := hread cs x hl hx n c e
      cases e' : lastSet (fillCalls m b d.props ++ cs') n with
      | some c' =>
        obtain ⟨q1, q2, q3, _⟩ := hread cs' y hl' hy n c' e'
        have hf := eq_of_nodup_map hn r3 q3
        obtain ⟨n1, f1, v1⟩ := c
        obtain ⟨n2, f2, v2⟩ := c'
        have r2 : n1 = n := r2
        have q2 : n2 = n := q2
        have hf : f1 = f2 := hf
        subst r2; subst q2; subst hf
        have : v1 = v2 := Res.ok.inj (r1.symm.trans ((hs _ _ r3 r4).trans q1))
        rw [this]
      | none =>
        obtain ⟨v, u1, u2⟩ := hunset cs' y hl' hy n c.fld r3 r4 e'
        have : v = c.val := Res.ok.inj (u1.symm.trans ((hs _ _ r3 r4).symm.trans r1))
        subst this
        have hcl := hclear cs hna n c e
        obtain ⟨n1, f1, v1⟩ := c
        have u3 : SetCall.clearsAttribute ⟨n1, f1, v1⟩ = true := by
          cases f1
          case noteAttribute => cases v1 <;> first | rfl | exact u2
          all_goals exact u2
        rw [hcl] at u3; cases u3
    | none =>
      cases e' : lastSet (fillCalls m b d.props ++ cs') n with
      | none => rfl
      | some c =>
        obtain ⟨r1, r2, r3, r4⟩ := hread cs' y hl' hy n c e'
        obtain ⟨v, u1, u2⟩ := hunset cs x hl hx n c.fld r3 r4 e
        have : v = c.val := Res.ok.inj (u1.symm.trans ((hs _ _ r3 r4).trans r1))
        subst this
        have hcl := hclear cs' hna' n c e'
        obtain ⟨n1, f1, v1⟩ := c
        have u3 : SetCall.clearsAttribute ⟨n1, f1, v1⟩ = true := by
          cases f1
          case noteAttribute => cases v1 <;> first | rfl | exact u2
          all_goals exact u2
        rw [hcl] at u3; cases u3
  obtain ⟨z, z1, z2⟩ := history_eq hn hg hdet (hleg cs hl) (hleg cs' hl') hlast (hclear cs hna)
  rw [hrun] at z1 z2
  rw [hx] at z1; rw [hy] at z2
  cases z1; cases z2; rfl

/-- In a new message, writing back a property changes nothing. -/
def MsgDesc.settledNew (d : MsgDesc) (m : Fmt) : Bool :=
  match d.newVec m with
  | .ok b => d.props.all fun p => !p.2.accessible m ||
      (match p.2.read m b with
       | .ok v => p.2.faithful v && decide (p.2.write m b v = .ok b)
       | _ => false)
  | _ => true

theorem table_settled_ump : Msg.all.all (fun d => d.settledNew .ump) = true := by decide +kernel
theorem table_settled_bytes : Msg.hybridAll.all (fun d => d.settledNew .bytes) = true := by
  decide +kernel

theorem settledNew_spec {d : MsgDesc} {m : Fmt} (h : d.settledNew m = true) {b : Buf m}
    (hb : d.newVec m = .ok b) : ∀ n f, (n, f) ∈ d.props → f.accessible m = true →
      ∃ v, f.read m b = .ok v ∧ f.faithful v = true ∧ f.write m b v = .ok b := by
  intro n f hf ha
  unfold MsgDesc.settledNew at h
  rw [hb] at h
  have := List.all_eq_true.mp h (n, f) hf
  simp only [ha, Bool.not_true, Bool.false_or] at this
  cases e : f.read m b with
  | ok v =>
    rw [e] at this
    simp only [Bool.and_eq_true, decide_eq_true_eq] at this
    exact ⟨v, rfl, this⟩
  | err _ => rw [e] at this; cases this
  | panic => rw [e] at this; cases this

end Midi2
