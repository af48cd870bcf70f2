import Verif.Lemmas.SysexApi
import Verif.Lemmas.Heads

/-! The public operations on system exclusive messages. -/

namespace Midi2

namespace Sx

/-! ### Rewriting headers -/

theorem onTyped_eq (k : Sx) (b : Buf .ump) (f : BitVec 32 → BitVec 32) :
    k.onTyped b f = onHeads k.stride (fun w => U32.nibble w 0 == k.typ) f b := rfl

/-- Leading packets of this type. -/
def lead (k : Sx) (b : Buf .ump) : Nat := leading k.stride (fun w => U32.nibble w 0 == k.typ) b

theorem octet_setNibble1 (w : BitVec 32) (g : BitVec 4) (r : Nat) (hr : r < 4) :
    U32.octet (U32.setNibble w 1 g) r =
      if r = 0 then (U32.octet w 0).extractLsb' 4 4 ++ g else U32.octet w r := by
  split
  · next h =>
    subst h
    rw [U32.octet_nibbles _ 0 (by omega), U32.nibble_setNibble _ _ _ (by omega) (by omega),
      U32.nibble_setNibble _ _ _ (by omega) (by omega), ← U32.nibble_octet_hi w 0 (by omega)]
    rfl
  · next h => exact U32.octet_setNibble_ne _ _ _ (by omega) hr (by omega) _

/-- `set_group` octet by octet. -/
theorem setGroup_octetAt (k : Sx) (b : Buf .ump) (g : BitVec 4) (j r : Nat) (hr : r < 4 * k.stride) :
    octetAt (k.setGroup b g) (4 * (k.stride * j) + r) =
      if r = 0 ∧ j < k.lead b then (octetAt b (4 * (k.stride * j))).map (·.extractLsb' 4 4 ++ g)
      else octetAt b (4 * (k.stride * j) + r) := by
  have hs := k.stride_pos
  unfold setGroup octetAt
  rw [onTyped_eq, onHeads_getElem? hs]
  have e1 : (4 * (k.stride * j) + r) / 4 = k.stride * j + r / 4 := by omega
  have e2 : (4 * (k.stride * j) + r) % 4 = r % 4 := by omega
  rw [e1, e2]
  have e3 : (k.stride * j + r / 4) % k.stride = r / 4 := by
    rw [Nat.mul_add_mod, Nat.mod_eq_of_lt (by omega)]
  have e4 : (k.stride * j + r / 4) / k.stride = j := by
    rw [Nat.mul_add_div hs, Nat.div_eq_of_lt (by omega), Nat.add_zero]
  rw [e3, e4]
  by_cases hj : j < k.lead b
  · by_cases h0 : r / 4 = 0
    · rw [if_pos ⟨h0, hj⟩, h0, Nat.add_zero]
      have hr4 : r % 4 = r := by omega
      rw [hr4]
      by_cases hr0 : r = 0
      · subst hr0
        rw [if_pos ⟨rfl, hj⟩, show 4 * (k.stride * j) / 4 = k.stride * j by omega,
          show 4 * (k.stride * j) % 4 = 0 by omega]
        cases b[k.stride * j]? with
        | none => rfl
        | some w => simp only [Option.map_some]; rw [octet_setNibble1 _ _ _ (by omega), if_pos rfl]
      · rw [if_neg (by omega)]
        cases b[k.stride * j]? with
        | none => rfl
        | some w => simp only [Option.map_some]; rw [octet_setNibble1 _ _ _ (by omega), if_neg hr0]
    · rw [if_neg (by omega), if_neg (by omega)]
  · rw [if_neg (fun c => hj c.2), if_neg (fun c => hj c.2)]

theorem setGroup_length (k : Sx) (b : Buf .ump) (g : BitVec 4) : (k.setGroup b g).length = b.length := by
  unfold setGroup
  rw [onTyped_eq]
  exact onHeads_length k.stride_pos _ _ b

/-- Octets other than the first of a packet. -/
theorem setGroup_other (k : Sx) (b : Buf .ump) (g : BitVec 4) (a : Nat) (ha : a % (4 * k.stride) ≠ 0) :
    octetAt (k.setGroup b g) a = octetAt b a := by
  have hs := k.stride_pos
  have e : a = 4 * (k.stride * (a / (4 * k.stride))) + a % (4 * k.stride) := by
    rw [← Nat.mul_assoc, Nat.div_add_mod]
  have := setGroup_octetAt k b g (a / (4 * k.stride)) (a % (4 * k.stride)) (Nat.mod_lt _ (by omega))
  rw [← e, if_neg (by omega)] at this
  exact this

/-- First octets keep their high nibble. -/
theorem setGroup_first (k : Sx) (b : Buf .ump) (g : BitVec 4) (j : Nat) {o : BitVec 8}
    (h : octetAt (k.setGroup b g) (4 * (k.stride * j)) = some o) :
    ∃ o', octetAt b (4 * (k.stride * j)) = some o' ∧ o.extractLsb' 4 4 = o'.extractLsb' 4 4 := by
  have hs := k.stride_pos
  have := setGroup_octetAt k b g j 0 (by omega)
  rw [Nat.add_zero, h] at this
  split at this
  · cases e : octetAt b (4 * (k.stride * j)) with
    | none => rw [e] at this; cases this
    | some o' =>
      rw [e] at this
      refine ⟨o', rfl, ?_⟩
      rw [Option.some.inj this, append_hi]
  · exact ⟨o, this.symm, rfl⟩

theorem not_addr_first (k : Sx) (i : Nat) : k.addr i % (4 * k.stride) ≠ 0 := by
  intro h
  have e : k.addr i = 4 * (k.stride * (k.addr i / (4 * k.stride))) + 0 := by
    rw [← Nat.mul_assoc]
    have := Nat.div_add_mod (k.addr i) (4 * k.stride)
    omega
  exact k.addr_ne_head i _ 0 (by have := k.two_le_off; omega) e

theorem head_mod (k : Sx) (j r : Nat) (h : r < 4 * k.stride) : (4 * (k.stride * j) + r) % (4 * k.stride) = r := by
  rw [← Nat.mul_assoc, Nat.mul_add_mod, Nat.mod_eq_of_lt h]

theorem tidy_setGroup {k : Sx} {b : Buf .ump} (g : BitVec 4) (h : Tidy k b) : Tidy k (k.setGroup b g) := by
  have hs := k.stride_pos
  intro i o0 o1 hl h0 h1 ht hst
  rw [setGroup_length] at hl
  rw [k.four_stride i] at h0 h1
  obtain ⟨o', e1, e2⟩ := setGroup_first k b g _ h0
  rw [setGroup_other k b g _ (by rw [head_mod k _ 1 (by omega)]; omega)] at h1
  rw [← k.four_stride i] at e1 h1
  exact h i o' o1 hl e1 h1 (by rw [← e2]; exact ht) hst

theorem zeroId_setGroup {k : Sx} {b : Buf .ump} (g : BitVec 4) (h : ZeroId k b) :
    ZeroId k (k.setGroup b g) := by
  have hs := k.stride_pos
  refine ⟨?_, ?_⟩
  · intro hk j o ho
    subst hk
    rw [setGroup_other _ _ _ _ (by simp only [stride]; omega)] at ho
    exact h.1 rfl j o ho
  · intro hk a o ho
    by_cases ha : a % (4 * k.stride) = 0
    · have e : a = 4 * (k.stride * (a / (4 * k.stride))) := by
        rw [← Nat.mul_assoc]
        have := Nat.div_add_mod a (4 * k.stride)
        omega
      rw [e] at ho
      obtain ⟨o', e1, e2⟩ := setGroup_first k b g _ ho
      have h7 := h.2 hk _ _ e1
      rw [U32.lt_128] at h7 ⊢
      have key : ∀ x : BitVec 8, x.getLsbD 7 = (x.extractLsb' 4 4).getLsbD 3 := by decide +kernel
      rw [key, e2, ← key]; exact h7
    · rw [setGroup_other _ _ _ _ ha] at ho
      exact h.2 hk a o ho

section
variable {k : Sx} {g : BitVec 4} {b : Buf .ump}

/-- The packets of a message are leading. -/
theorem Valid.le_lead {p : Nat} {sz : Nat → Nat} (V : Valid k g p sz b) : p ≤ k.lead b := by
  apply le_leading k.stride_pos _ _ _ V.len
  intro j hj
  obtain ⟨w, e1, e2, _⟩ := V.word hj
  exact ⟨w, e1, by rw [e2]; simp⟩

theorem Valid.setGroup {p : Nat} {sz : Nat → Nat} (V : Valid k g p sz b) (g' : BitVec 4) :
    Valid k g' p sz (k.setGroup b g') := by
  have hs := k.stride_pos
  refine ⟨V.pos, by rw [setGroup_length]; exact V.len, V.le_cap, ?_, ?_⟩
  · intro j hj
    have := setGroup_octetAt k b g' j 0 (by omega)
    rw [Nat.add_zero] at this
    rw [this, if_pos ⟨rfl, Nat.lt_of_lt_of_le hj V.le_lead⟩, V.oct0 j hj, Option.map_some]
    unfold typOctet
    rw [append_hi]
  · intro j hj
    rw [setGroup_other k b g' _ (by rw [head_mod k _ 1 (by omega)]; omega), V.oct1 j hj]

theorem byteD_setGroup (k : Sx) (b : Buf .ump) (g' : BitVec 4) (i : Nat) :
    k.byteD (k.setGroup b g') (k.addr i) = k.byteD b (k.addr i) := by
  unfold byteD
  rw [setGroup_other k b g' _ (k.not_addr_first i)]

theorem addrs_addr (k : Sx) (p : Nat) (sz : Nat → Nat) (j a : Nat) (h : a ∈ k.addrs p sz j) :
    ∃ i, a = k.addr i := by
  unfold addrs at h
  rw [List.mem_flatMap] at h
  obtain ⟨t, _, h⟩ := h
  rw [List.mem_map] at h
  obtain ⟨i, _, rfl⟩ := h
  exact ⟨_, rfl⟩

theorem Valid.setGroup_payload {p : Nat} {sz : Nat → Nat} (V : Valid k g p sz b) (g' : BitVec 4) :
    (V.setGroup g').payload = V.payload := by
  unfold Valid.payload
  rw [restFrom_addrs k _ V.le_cap, restFrom_addrs k _ V.le_cap]
  apply List.map_congr_left
  intro a ha
  obtain ⟨i, rfl⟩ := addrs_addr k p sz 0 a ha
  exact byteD_setGroup k b g' i

theorem Packed.setGroup {p : Nat} {l : List k.Byte} (P : Packed k g p b l) (g' : BitVec 4) :
    Packed k g' p (k.setGroup b g') l := by
  have V := P.valid.setGroup g'
  refine ⟨P.pos, V.len, P.lo, P.hi, V.oct0, V.oct1, ?_⟩
  intro i hi
  rw [setGroup_other k b g' _ (k.not_addr_first i), P.bytes i hi]

theorem Strict.setGroup {dbg : Bool} {I : Buf .ump → Prop} {N : Option Nat} {l : List k.Byte}
    (S : Strict k dbg I g N b l) (g' : BitVec 4) (hI : I b → I (k.setGroup b g')) :
    Strict k dbg I g' N (k.setGroup b g') l := by
  refine ⟨S.packed.setGroup g', ⟨fun e => ?_, hI S.whole.inv, ?_⟩, ?_, ?_⟩
  · cases N with
    | none =>
      have h := S.exact rfl
      exact isCompact_of_tidy ((S.packed.setGroup g').tidy
        (tidyFrom_end (by rw [setGroup_length]; omega)))
    | some => exact tidy_setGroup g' (S.whole.steady e)
  · intro n e; rw [setGroup_length]; exact S.whole.fixed n e
  · intro h i h1 h2
    rw [setGroup_other k b g' _ (k.not_addr_first i)]
    exact S.pad h i h1 h2
  · intro e; rw [setGroup_length]; exact S.exact e

/-! ### Single bytes -/

theorem Valid.setByteLoop {p : Nat} {sz : Nat → Nat} (V : Valid k g p sz b) (v : k.Byte) :
    ∀ (m fuel j i : Nat), p - j = m → m < fuel → i < (k.restFrom b p sz j).length →
      ∃ b', k.setByteLoop v fuel b j i = .ok b' ∧ SameHeads k b b' ∧
        (∀ x, x < 4 * (k.stride * j) → octetAt b' x = octetAt b x) ∧
        k.restFrom b' p sz j = (k.restFrom b p sz j).set i v ∧
        ∀ t, (k.addrs p sz j)[i]? ≠ some t → octetAt b' t = octetAt b t := by
  intro m
  induction m with
  | zero =>
    intro fuel j i hm _ hi
    rw [restFrom_ge _ _ _ (by omega)] at hi
    simp at hi
  | succ m ih =>
    intro fuel j i hm hf hi
    have hj : j < p := by omega
    cases fuel with
    | zero => omega
    | succ fuel =>
      obtain ⟨w, w1, _, w3⟩ := V.frame.head j hj
      have hle := V.frame.le_mul hj
      have hcap := V.le_cap j hj
      have hco := k.cap_off
      unfold Sx.setByteLoop
      have hat : at' b (j * k.stride) = .ok w := by unfold at'; rw [Nat.mul_comm, w1]
      rw [hat]
      simp only [Res.ok_bind]
      rw [w3]
      simp only [Res.ok_bind]
      by_cases h : i < sz j
      · rw [if_pos h]
        have ha : 4 * (k.stride * j) + k.off + i < 4 * b.length := by omega
        obtain ⟨b', e1, e2, e3, o, e4, e5, e6⟩ := k.modify_byte ha v
        have haddr : k.addr (k.cap * j + i) = 4 * (k.stride * j) + k.off + i :=
          addr_mul_add _ _ _ (by omega)
        refine ⟨b', ?_, ⟨e2, ?_, ?_⟩, ?_, ?_, ?_⟩
        · have d1 : j * k.stride + (i + k.off) / 4 = (4 * (k.stride * j) + k.off + i) / 4 := by
            rw [Nat.mul_comm j]; omega
          have d2 : (i + k.off) % 4 = (4 * (k.stride * j) + k.off + i) % 4 := by omega
          rw [d1, d2]; exact e1
        · intro x hx
          exact e3 x (by rw [← haddr]; exact hx _)
        · intro hb hk a o' ho
          by_cases haa : a = 4 * (k.stride * j) + k.off + i
          · subst haa
            rw [e4] at ho
            cases ho
            exact e6 hk _ (octetAt_lt ha) (hb hk _ _ (octetAt_lt ha))
          · rw [e3 a haa] at ho
            exact hb hk a o' ho
        · intro x hx; exact e3 x (by omega)
        · rw [restFrom_lt k b' sz hj, restFrom_lt k b sz hj, List.set_append_left _ _ (by
            rw [length_packetBytes]; exact h)]
          congr 1
          · apply List.ext_getElem
            · simp [packetBytes]
            · intro t h1 h2
              rw [List.getElem_set]
              simp only [packetBytes, List.getElem_map, List.getElem_range]
              split
              · next e =>
                subst e
                unfold byteD
                rw [e4, Option.getD_some, e5]
              · next e =>
                unfold byteD
                rw [e3 _ (by omega)]
          · rw [restFrom_addrs k b' V.le_cap, restFrom_addrs k b V.le_cap]
            apply List.map_congr_left
            intro a ha'
            have := k.le_addrs sz ha'
            rw [Nat.mul_succ] at this
            unfold byteD
            rw [e3 _ (by omega)]
        · intro t ht
          apply e3
          rintro rfl
          apply ht
          rw [addrs_lt k sz hj, List.getElem?_append_left (by simpa using h), List.getElem?_map,
            List.getElem?_range h, Option.map_some, haddr]
      · rw [if_neg h]
        rw [restFrom_lt k b sz hj, List.length_append, length_packetBytes] at hi
        obtain ⟨b', i1, i2, i3, i4, i5⟩ := ih fuel (j + 1) (i - sz j) (by omega) (by omega) (by omega)
        refine ⟨b', i1, i2, ?_, ?_, ?_⟩
        · intro x hx
          exact i3 x (by rw [Nat.mul_succ]; omega)
        · rw [restFrom_lt k b' sz hj, restFrom_lt k b sz hj, i4, List.set_append_right _ _ (by
            rw [length_packetBytes]; omega), length_packetBytes]
          congr 1
          unfold packetBytes
          apply List.map_congr_left
          intro t ht
          have ht : t < sz j := by simpa using ht
          unfold byteD
          rw [i3 _ (by rw [Nat.mul_succ]; omega)]
        · intro t ht
          apply i5
          rw [addrs_lt k sz hj, List.getElem?_append_right (by simp; omega)] at ht
          simpa using ht

/-- `set_byte` on any message. -/
theorem Valid.setByte {p : Nat} {sz : Nat → Nat} (V : Valid k g p sz b) (v : k.Byte) {i : Nat}
    (hi : i < V.payload.length) :
    ∃ b', k.setByte b v i = .ok b' ∧ SameHeads k b b' ∧ k.restFrom b' p sz 0 = V.payload.set i v ∧
      ∀ t, (k.addrs p sz 0)[i]? ≠ some t → octetAt b' t = octetAt b t := by
  obtain ⟨b', e1, e2, _, e4, e5⟩ := V.setByteLoop v p (b.length + 1) 0 i (by omega)
    (by have := V.frame.fuel_ok 0; omega) hi
  exact ⟨b', e1, e2, e4, e5⟩

theorem addrs_full (k : Sx) {p : Nat} {sz : Nat → Nat} {l : Nat}
    (hsz : ∀ j, j < p → sz j = min k.cap (l - k.cap * j)) (hl : l ≤ k.cap * p) :
    ∀ (m j i : Nat), p - j = m → j ≤ p → k.cap * j + i < l → (k.addrs p sz j)[i]? = some (k.addr (k.cap * j + i)) := by
  intro m
  induction m with
  | zero =>
    intro j i hm hj hi
    have : j = p := by omega
    subst this
    omega
  | succ m ih =>
    intro j i hm hj hi
    have hjp : j < p := by omega
    rw [addrs_lt k sz hjp]
    have := hsz j hjp
    by_cases h : i < sz j
    · rw [List.getElem?_append_left (by simpa using h), List.getElem?_map, List.getElem?_range h]; rfl
    · rw [List.getElem?_append_right (by simpa using h), List.length_map, List.length_range]
      have hs : sz j = k.cap := by omega
      have := ih (j + 1) (i - sz j) (by omega) (by omega) (by rw [Nat.mul_succ]; omega)
      rw [this, Nat.mul_succ]
      congr 2; omega

theorem Strict.setByte {dbg : Bool} {I : Buf .ump → Prop} {N : Option Nat} (hI : Inv k I N.isSome)
    {l : List k.Byte} (S : Strict k dbg I g N b l) (v : k.Byte) {i : Nat} (hi : i < l.length) :
    ∃ b', k.setByte b v i = .ok b' ∧ Strict k dbg I g N b' (l.set i v) := by
  have P := S.packed
  have hpay : P.valid.payload = l := by
    unfold Valid.payload
    rw [P.restFrom_eq _ 0 rfl (by omega)]; simp
  obtain ⟨b', e1, e2, e3, e4⟩ := P.valid.setByte v (by rw [hpay]; exact hi)
  have hsz : ∀ j, j < k.count l.length → k.fillSize (k.count l.length) l.length j = min k.cap (l.length - k.cap * j) :=
    fun j hj => k.fillSize_eq _ _ hj
  have ha := addrs_full k hsz P.hi (k.count l.length) 0 i (by omega) (by omega) (by omega)
  rw [Nat.mul_zero, Nat.zero_add] at ha
  have V' := e2.valid P.valid
  have P' : Packed k g (k.count l.length) b' (l.set i v) := by
    have := V'.packed (fun j hj => by
      unfold fillSize
      rw [if_neg (by omega)])
    have e : V'.payload = l.set i v := by
      unfold Valid.payload
      rw [e3, hpay]
    rwa [e] at this
  refine ⟨b', e1, ⟨by rw [List.length_set]; exact P', SameHeads.whole hI e2 S.whole, ?_, ?_⟩⟩
  · intro h t h1 h2
    rw [List.length_set] at h h1 h2
    rw [e4 _ (by rw [ha]; intro e; have := k.addr_inj (Option.some.inj e); omega)]
    exact S.pad h t h1 h2
  · intro e
    rw [e2.1, List.length_set]
    exact S.exact e

/-! ### Compaction before a splice -/

theorem Loose.compact {dbg : Bool} {I : Buf .ump → Prop} {N : Option Nat} (hI : Inv k I N.isSome)
    {l : List k.Byte} (h : Loose k dbg I g N b l) :
    ∃ b0, k.compact b = .ok b0 ∧ Loose k dbg I g N b0 l := by
  obtain ⟨⟨p, P⟩, W⟩ := h
  obtain ⟨b', e1, ⟨p', e2⟩, e3, e4, e5, -⟩ := P.valid.compact_eq (fun _ j hj => by
    unfold fillSize; rw [if_neg (by omega)])
  have hpay : P.valid.payload = l := by
    unfold Valid.payload
    rw [P.restFrom_eq _ 0 rfl (by omega)]; simp
  rw [hpay] at e2
  refine ⟨b', e1, ⟨p', e2⟩, ?_, e5 I _ hI W.inv, fun n hn => by rw [e3]; exact W.fixed n hn⟩
  intro hd
  rw [e4 (W.steady hd).isCompact]
  exact W.steady hd

/-- `compact()` leaves behind the message what was there, and of other types as well. -/
structure Compacted (k : Sx) (n : Nat) (b b' : Buf .ump) : Prop where
  len : b'.length = b.length
  types : ∀ j, octetAt b' (4 * (k.stride * j)) = octetAt b (4 * (k.stride * j))
  behind : ∀ j r, r < 2 → k.count n ≤ j →
    octetAt b' (4 * (k.stride * j) + r) = octetAt b (4 * (k.stride * j) + r)

theorem Compacted.steady {b b' : Buf .ump} {l : List k.Byte} (C : Compacted k l.length b b')
    {p' : Nat} (P : Packed k g p' b' l) (N : Option Nat) :
    Steady k N b' ↔ SteadyFrom k N (k.stride * k.count l.length) b := by
  have hc : k.count l.length ≤ p' := (k.count_le_iff _ _ P.pos).mpr P.hi
  have hj : ∀ i, k.stride * k.count l.length ≤ 4 * i → k.count l.length ≤ 4 / k.stride * i := by
    intro i hi
    cases k <;> simp only [stride] at * <;> omega
  have htyp : ∀ i, octetAt b' (16 * i) = octetAt b (16 * i) := by
    intro i
    rw [k.four_stride i]
    exact C.types _
  have hhead : ∀ i, k.stride * k.count l.length ≤ 4 * i →
      octetAt b' (16 * i + 1) = octetAt b (16 * i + 1) := by
    intro i hi
    rw [k.four_stride i]
    exact C.behind _ 1 (by omega) (hj i hi)
  have hin : ∀ i o1, ¬ k.stride * k.count l.length ≤ 4 * i → octetAt b' (16 * i + 1) = some o1 →
      (o1.extractLsb' 4 4 = 0x1 ∨ o1.extractLsb' 4 4 = 0x2) → o1.extractLsb' 0 4 = k.fullNibble := by
    intro i o1 hi h1 hs
    have hlt : 4 / k.stride * i < p' := by
      cases k <;> simp only [stride] at * <;> omega
    exact P.full_head hlt (by rw [← k.four_stride i]; exact h1) hs
  cases N with
  | none =>
    show k.isCompact b' = true ↔ RunTidyFrom k _ b
    rw [isCompact_iff]
    constructor
    · intro h i o1 hq hl ht h1 hs
      refine h i o1 (by omega) (by rw [C.len]; exact hl) (fun i' hi' => ?_) (by rw [hhead i hq]; exact h1) hs
      rw [htyp]; exact ht i' hi'
    · intro h i o1 _ hl ht h1 hs
      by_cases hq : k.stride * k.count l.length ≤ 4 * i
      · refine h i o1 hq (by rw [← C.len]; exact hl) (fun i' hi' => ?_) (by rw [← hhead i hq]; exact h1) hs
        rw [← htyp]; exact ht i' hi'
      · exact hin i o1 hq h1 hs
  | some =>
    show Tidy k b' ↔ TidyFrom k _ b
    constructor
    · intro h i o0 o1 hq hl h0 h1 ht hs
      exact h i o0 o1 (by rw [C.len]; exact hl) (by rw [htyp]; exact h0) (by rw [hhead i hq]; exact h1) ht hs
    · intro h i o0 o1 hl h0 h1 ht hs
      by_cases hq : k.stride * k.count l.length ≤ 4 * i
      · exact h i o0 o1 hq (by rw [← C.len]; exact hl) (by rw [← htyp]; exact h0)
          (by rw [← hhead i hq]; exact h1) ht hs
      · exact hin i o1 hq h1 hs

/-- The state a splice starts from. -/
theorem Valid.compacted_of {p : Nat} {sz : Nat → Nat} (V : Valid k g p sz b)
    (h : k.isCompact b = true → ∀ j, j + 1 < p → sz j = k.cap) :
    ∃ b0 p0, k.compact b = .ok b0 ∧ Packed k g p0 b0 V.payload ∧
      Compacted k V.payload.length b b0 ∧ ∀ I fixed, Inv k I fixed → I b → I b0 := by
  obtain ⟨b', e1, ⟨p0, e2⟩, e3, e4, e5, e6, e7⟩ := V.compact_eq h
  refine ⟨b', p0, e1, e2, ⟨e3, fun j => ?_, e7⟩, e5⟩
  by_cases hj : j < p
  · rw [e6 j hj, V.oct0 j hj]
  · refine e7 j 0 (by omega) ?_
    have hmap : V.payload = (k.addrs p sz 0).map (k.byteD b) := restFrom_addrs k b V.le_cap 0
    have hn : V.payload.length ≤ k.cap * p := by
      rw [hmap, List.length_map]
      have := length_addrs_le k V.le_cap p 0 (by omega) (by omega)
      simpa using this
    have := (k.count_le_iff _ p V.pos).mpr hn
    omega

/-- The state a splice starts from: all packets but the last are full, or some packet the
compactness check looks at is short. -/
theorem Valid.compacted {p : Nat} {sz : Nat → Nat} (V : Valid k g p sz b)
    (h : (∀ j, j + 1 < p → sz j = k.cap) ∨ (∃ j, j + 1 < p ∧ k.checked j ∧ sz j ≠ k.cap)) :
    ∃ b0 p0, k.compact b = .ok b0 ∧ Packed k g p0 b0 V.payload ∧
      Compacted k V.payload.length b b0 ∧ ∀ I fixed, Inv k I fixed → I b → I b0 :=
  V.compacted_of fun hcm => by
    rcases h with h | ⟨j, hj, hc, hne⟩
    · exact h
    · exact absurd (V.of_isCompact hcm j hj hc) hne

/-- When a splice may start from a message. -/
theorem Valid.start {dbg : Bool} {I : Buf .ump → Prop} {N : Option Nat} (hI : Inv k I N.isSome) {p : Nat}
    {sz : Nat → Nat} (V : Valid k g p sz b) (hi : I b) (hN : ∀ n, N = some n → b.length = n)
    (h : (∀ j, j + 1 < p → sz j = k.cap) ∨ (∃ j, j + 1 < p ∧ k.checked j ∧ sz j ≠ k.cap))
    (ht : dbg = true → SteadyFrom k N (k.stride * k.count V.payload.length) b) :
    ∃ b0, k.compact b = .ok b0 ∧ Loose k dbg I g N b0 V.payload := by
  obtain ⟨b0, p0, e1, P, C, e2⟩ := V.compacted h
  exact ⟨b0, e1, ⟨p0, P⟩, fun hd => (C.steady P N).mpr (ht hd), e2 I _ hI hi,
    fun n hn => by rw [C.len]; exact hN n hn⟩

end

/-! ### Splicing -/

theorem spliceBegin_eq (rb : Bound) : rb.spliceBegin = rb.first := by cases rb <;> rfl
theorem spliceEnd_eq (re : Bound) (n : Nat) : re.spliceEnd n = re.last n := by cases re <;> rfl

theorem cut {α : Type} (l : List α) (i j : Nat) (h : i ≤ j) :
    l = l.take i ++ (l.take j).drop i ++ l.drop j := by
  rw [List.drop_take, List.append_assoc]
  conv => lhs; rw [← List.take_append_drop i l]
  congr 1
  conv => lhs; rw [← List.take_append_drop (j - i) (l.drop i)]
  rw [List.drop_drop, show i + (j - i) = j by omega]

theorem splice_vec_of (k : Sx) {dbg : Bool} {I : Buf .ump → Prop} {g : BitVec 4}
    {R : Buf .ump → List k.Byte → Prop} (L : SxLawsAll (k.ops dbg .vec) R (Strict k dbg I g none) none)
    {b b0 : Buf .ump} {l : List k.Byte} (hc : k.compact b = .ok b0)
    (h : R b0 l) (d : Src k.Byte) (rb re : Bound)
    (h1 : rb.first ≤ re.last l.length) (h2 : re.last l.length ≤ l.length) :
    ∃ b', (k.ops dbg .vec).splice b d rb re = .ok b' ∧
      Strict k dbg I g none b' (spliced l rb.first (re.last l.length) d.items) := by
  have hcut := cut l rb.first (re.last l.length) h1
  have hlen : ((l.take (re.last l.length)).drop rb.first).length = re.last l.length - rb.first := by
    simp only [List.length_drop, List.length_take]; omega
  refine L.toLaws.splice_spec (s := b) (s0 := b0) d rb re (l.take rb.first)
    ((l.take (re.last l.length)).drop rb.first) (l.drop (re.last l.length)) hc (by rw [← hcut]; exact h) ?_ ?_
  · rw [spliceBegin_eq, List.length_take]; omega
  · rw [← hcut, spliceEnd_eq, List.length_take, hlen]; omega

theorem splice_vec (k : Sx) {dbg : Bool} {I : Buf .ump → Prop} (hI : Inv k I false) {g : BitVec 4}
    {b b0 : Buf .ump} {l : List k.Byte} (hc : k.compact b = .ok b0)
    (h : Loose k dbg I g none b0 l) (d : Src k.Byte) (rb re : Bound)
    (h1 : rb.first ≤ re.last l.length) (h2 : re.last l.length ≤ l.length) :
    ∃ b', (k.ops dbg .vec).splice b d rb re = .ok b' ∧
      Strict k dbg I g none b' (spliced l rb.first (re.last l.length) d.items) :=
  splice_vec_of k (laws k dbg g none hI) hc h d rb re h1 h2

theorem splice_fixed_of (k : Sx) {dbg : Bool} {I : Buf .ump → Prop} {g : BitVec 4}
    {N : Nat} {R : Buf .ump → List k.Byte → Prop}
    (L : SxLawsAll (k.ops dbg .fixed) R (Strict k dbg I g (some N)) (k.limit (some N)))
    {b b0 : Buf .ump} (hN : k.stride ≤ N) {l : List k.Byte} (hc : k.compact b = .ok b0)
    (h : R b0 l) (d : Src k.Byte) (rb re : Bound)
    (h1 : rb.first ≤ re.last l.length) (h2 : re.last l.length ≤ l.length)
    (hh : rb.first = re.last l.length ∨ d.items.length ≤ d.estimate ∨
      k.stride * k.count (l.length - (re.last l.length - rb.first) + 2 * d.items.length) ≤ N) :
    (k.stride * k.count (spliced l rb.first (re.last l.length) d.items).length ≤ N →
      ∃ b', (k.ops dbg .fixed).trySplice b d rb re = .ok (b', none) ∧
        Strict k dbg I g (some N) b' (spliced l rb.first (re.last l.length) d.items)) ∧
    (N < k.stride * k.count (spliced l rb.first (re.last l.length) d.items).length →
      ∃ b', (k.ops dbg .fixed).trySplice b d rb re = .ok (b', some .bufferOverflow) ∧
        Strict k dbg I g (some N) b' []) := by
  have hcut := cut l rb.first (re.last l.length) h1
  have hlen : ((l.take (re.last l.length)).drop rb.first).length = re.last l.length - rb.first := by
    simp only [List.length_drop, List.length_take]; omega
  have key := L.toLaws.trySplice_spec (s := b) (s0 := b0) d rb re (l.take rb.first)
    ((l.take (re.last l.length)).drop rb.first) (l.drop (re.last l.length)) hc (by rw [← hcut]; exact h)
    (by rw [spliceBegin_eq, List.length_take]; omega)
    (by rw [← hcut, spliceEnd_eq, List.length_take, hlen]; omega)
    (by
      rcases hh with hh | hh | hh
      · right; left
        apply List.eq_nil_of_length_eq_zero
        omega
      · exact Or.inr (Or.inr (Or.inl hh))
      · refine Or.inr (Or.inr (Or.inr ⟨Or.inr L.resize, ?_⟩))
        intro c hc
        cases hc
        refine (k.limit_iff hN).mpr ?_
        rw [List.length_take, List.length_drop, show min rb.first l.length + 2 * d.items.length +
          (l.length - re.last l.length) = l.length - (re.last l.length - rb.first) + 2 * d.items.length by
          omega]
        exact hh)
  have hfit : Fits (k.limit (some N)) (l.take rb.first ++ d.items ++ l.drop (re.last l.length)).length ↔
      k.stride * k.count (spliced l rb.first (re.last l.length) d.items).length ≤ N := by
    rw [← k.limit_iff hN]
    constructor
    · intro hf; exact hf _ rfl
    · intro hf c hc; cases hc; exact hf
  exact ⟨fun hf => key.1 (hfit.mpr hf), fun hf => key.2 (fun c => by have := hfit.mp c; omega)⟩

theorem splice_fixed (k : Sx) {dbg : Bool} {I : Buf .ump → Prop} (hI : Inv k I true) {g : BitVec 4}
    {b b0 : Buf .ump} {N : Nat} (hN : k.stride ≤ N) {l : List k.Byte} (hc : k.compact b = .ok b0)
    (h : Loose k dbg I g (some N) b0 l) (d : Src k.Byte) (rb re : Bound)
    (h1 : rb.first ≤ re.last l.length) (h2 : re.last l.length ≤ l.length)
    (hh : rb.first = re.last l.length ∨ d.items.length ≤ d.estimate ∨
      k.stride * k.count (l.length - (re.last l.length - rb.first) + 2 * d.items.length) ≤ N) :
    (k.stride * k.count (spliced l rb.first (re.last l.length) d.items).length ≤ N →
      ∃ b', (k.ops dbg .fixed).trySplice b d rb re = .ok (b', none) ∧
        Strict k dbg I g (some N) b' (spliced l rb.first (re.last l.length) d.items)) ∧
    (N < k.stride * k.count (spliced l rb.first (re.last l.length) d.items).length →
      ∃ b', (k.ops dbg .fixed).trySplice b d rb re = .ok (b', some .bufferOverflow) ∧
        Strict k dbg I g (some N) b' []) :=
  splice_fixed_of k (laws k dbg g (some N) hI) hN hc h d rb re h1 h2 hh

/-! ### Replacing the payload -/

/-- `resize(0)` on a growable buffer. -/
theorem clear_vec (k : Sx) (dbg : Bool) {I : Buf .ump → Prop} (hI : Inv k I false) {g : BitVec 4}
    {b : Buf .ump} (hg : ∃ w, b[0]? = some w ∧ U32.nibble w 1 = g) (hi : I (vecResize b k.stride)) :
    ∃ b', k.tryResize .vec b 0 = .ok (b', none) ∧ Strict k dbg I g none b' [] := by
  have hs := k.stride_pos
  have hc0 : k.count 0 = 1 := rfl
  obtain ⟨w, hw, hwg⟩ := hg
  have hs1 := length_vecResize b (k.stride * k.count 0)
  have hw1 : (vecResize b (k.stride * k.count 0))[0]? = some w := by
    have hb : 0 < b.length := by
      rcases Nat.eq_zero_or_pos b.length with h | h
      · rw [List.getElem?_eq_none (by omega)] at hw; cases hw
      · exact h
    unfold vecResize
    rw [List.getElem?_append_left (by simp [hc0]; omega), List.getElem?_take_of_lt (by rw [hc0]; omega), hw]
  obtain ⟨b', e1, r⟩ := k.tryResize_fine (m := .vec) (b := b) (n := 0) rfl
    (Nat.le_of_eq hs1.symm) ⟨w, hw1, hwg⟩
  obtain ⟨l', f1, f2, f3, f4⟩ := r.packed (Nat.le_of_eq hs1.symm)
  have : l' = [] := List.eq_nil_of_length_eq_zero f1
  subst this
  refine ⟨b', e1, ⟨f2, ⟨?_, ?_, ?_⟩, f4, ?_⟩⟩
  · intro _; exact (r.tidy (tidyFrom_end (by omega))).steady _
  · exact hI.resized r (by rw [hc0, Nat.mul_one]; exact hi)
  · intro _ h; cases h
  · intro _; rw [r.len, hs1]; rfl

theorem setPayload_vec (k : Sx) (dbg : Bool) {I : Buf .ump → Prop} (hI : Inv k I false) {g : BitVec 4}
    {b : Buf .ump} (hg : ∃ w, b[0]? = some w ∧ U32.nibble w 1 = g) (hi : I (vecResize b k.stride))
    (d : Src k.Byte) :
    ∃ b', (k.ops dbg .vec).setPayload b d = .ok b' ∧ Strict k dbg I g none b' d.items := by
  obtain ⟨b1, e1, S⟩ := clear_vec k dbg hI hg hi
  obtain ⟨b0, c1, c2⟩ := Loose.compact hI (N := none) ⟨⟨_, S.packed⟩, S.whole⟩
  obtain ⟨b', e2, e3⟩ := splice_vec k hI c1 c2 d (.included 0) (.excluded 0) (by simp [Bound.first, Bound.last])
    (by simp [Bound.last])
  refine ⟨b', ?_, ?_⟩
  · unfold SxOps.setPayload
    show ((k.tryResize .vec b 0) >>= fun x => _) = _
    rw [e1]
    exact e2
  · have : spliced ([] : List k.Byte) (Bound.included 0).first ((Bound.excluded 0).last ([] : List k.Byte).length) d.items = d.items := by
      simp [spliced]
    rwa [this] at e3

/-- `resize(0)` on a fixed buffer. -/
theorem clear_fixed (k : Sx) {dbg : Bool} {I : Buf .ump → Prop} (hI : Inv k I true) {g : BitVec 4}
    {b : Buf .ump} (hb : k.stride ≤ b.length) (hg : ∃ w, b[0]? = some w ∧ U32.nibble w 1 = g)
    (hi : I b) (ht : dbg = true → TidyFrom k k.stride b) :
    ∃ b', k.tryResize .fixed b 0 = .ok (b', none) ∧ Strict k dbg I g (some b.length) b' [] := by
  have hc0 : k.count 0 = 1 := rfl
  have hle : k.stride * k.count 0 ≤ b.length := by rw [hc0]; omega
  obtain ⟨b', e1, r⟩ := k.tryResize_fine (m := .fixed) (b := b) (n := 0) (b1 := b)
    (by simp [Mem.resize, hle]) hle hg
  obtain ⟨l', f1, f2, f3, f4⟩ := r.packed hle
  have : l' = [] := List.eq_nil_of_length_eq_zero f1
  subst this
  refine ⟨b', e1, ⟨f2, ⟨?_, ?_, ?_⟩, f4, ?_⟩⟩
  · intro e; exact r.tidy (by rw [hc0, Nat.mul_one]; exact ht e)
  · exact hI.resized r hi
  · intro x h; rw [r.len]; exact Option.some.inj h
  · intro h; cases h

theorem trySetPayload_fixed (k : Sx) {dbg : Bool} {I : Buf .ump → Prop} (hI : Inv k I true) {g : BitVec 4}
    {b : Buf .ump} (hb : k.stride ≤ b.length) (hg : ∃ w, b[0]? = some w ∧ U32.nibble w 1 = g)
    (hi : I b) (ht : dbg = true → TidyFrom k k.stride b) (d : Src k.Byte) :
    (k.stride * k.count d.items.length ≤ b.length →
      ∃ b', (k.ops dbg .fixed).trySetPayload b d = .ok (b', none) ∧
        Strict k dbg I g (some b.length) b' d.items) ∧
    (b.length < k.stride * k.count d.items.length →
      ∃ b', (k.ops dbg .fixed).trySetPayload b d = .ok (b', some .bufferOverflow) ∧
        Strict k dbg I g (some b.length) b' []) := by
  obtain ⟨b1, e1, S⟩ := clear_fixed k hI hb hg hi ht
  obtain ⟨b0, c1, c2⟩ := Loose.compact hI (N := some b.length) ⟨⟨_, S.packed⟩, S.whole⟩
  have key := splice_fixed k hI hb c1 c2 d (.included 0) (.excluded 0) (by simp [Bound.first, Bound.last])
    (by simp [Bound.last]) (Or.inl rfl)
  have hsp : spliced ([] : List k.Byte) (Bound.included 0).first ((Bound.excluded 0).last ([] : List k.Byte).length) d.items = d.items := by
    simp [spliced]
  rw [hsp] at key
  have hun : (k.ops dbg .fixed).trySetPayload b d = (k.ops dbg .fixed).trySplice b1 d (.included 0) (.excluded 0) := by
    unfold SxOps.trySetPayload
    show ((k.tryResize .fixed b 0) >>= fun x => _) = _
    rw [e1]; rfl
  rw [hun]
  exact key

end Sx

end Midi2
