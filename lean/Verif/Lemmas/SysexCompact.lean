import Verif.Lemmas.SysexLaws
import Verif.Lemmas.Construct

/-! `compact`: joining partly filled packets. -/

namespace Midi2

namespace Sx

/-- The buffer starts with a message of `p` packets of group `g` with the given numbers
of payload bytes: any legal message, however its payload is distributed. -/
structure Valid (k : Sx) (g : BitVec 4) (p : Nat) (sz : Nat → Nat) (b : Buf .ump) : Prop where
  pos : 0 < p
  len : k.stride * p ≤ b.length
  le_cap : ∀ j, j < p → sz j ≤ k.cap
  oct0 : ∀ j, j < p → octetAt b (4 * (k.stride * j)) = some (k.typOctet g)
  oct1 : ∀ j, j < p → octetAt b (4 * (k.stride * j) + 1) =
    some (stat p j ++ BitVec.ofNat 4 (sz j + k.bias))

theorem Packed.valid {k : Sx} {g : BitVec 4} {p : Nat} {b : Buf .ump} {l : List k.Byte}
    (P : Packed k g p b l) : Valid k g p (k.fillSize p l.length) b :=
  ⟨P.pos, P.len, fun j _ => fillSize_le P j, P.oct0, P.oct1⟩

section
variable {k : Sx} {g : BitVec 4} {p : Nat} {sz : Nat → Nat} {b : Buf .ump}

theorem Valid.frame (V : Valid k g p sz b) : Frame k b p sz := by
  refine ⟨V.pos, V.len, ?_, V.le_cap⟩
  intro j hj
  obtain ⟨w, e1, e2⟩ := octetAt_word (by omega) (V.oct1 j hj)
  exact ⟨w, e1, by rw [isLast_octet e2, isLast_stat hj], packetSize_octet k (V.le_cap j hj) e2⟩

theorem Valid.word (V : Valid k g p sz b) {j : Nat} (hj : j < p) :
    ∃ w, b[k.stride * j]? = some w ∧ U32.nibble w 0 = k.typ ∧ U32.nibble w 1 = g ∧
      U32.nibble w 2 = stat p j ∧ U32.nibble w 3 = BitVec.ofNat 4 (sz j + k.bias) := by
  obtain ⟨w, e1, e2⟩ := octetAt_word (by omega) (V.oct1 j hj)
  obtain ⟨w', f1, f2⟩ := octetAt_word (r := 0) (by omega) (V.oct0 j hj)
  rw [e1] at f1
  cases f1
  refine ⟨w, e1, ?_, ?_, ?_, ?_⟩
  · rw [show 0 = 2 * 0 from rfl, U32.nibble_octet_hi w 0 (by omega), f2]; exact append_hi _ _
  · rw [show 1 = 2 * 0 + 1 from rfl, U32.nibble_octet_lo w 0 (by omega), f2]; exact append_lo _ _
  · rw [show 2 = 2 * 1 from rfl, U32.nibble_octet_hi w 1 (by omega), e2]; exact append_hi _ _
  · rw [show 3 = 2 * 1 + 1 from rfl, U32.nibble_octet_lo w 1 (by omega), e2]; exact append_lo _ _

theorem SameHeads.valid {b' : Buf .ump} (h : SameHeads k b b') (V : Valid k g p sz b) :
    Valid k g p sz b' := by
  have ho := k.two_le_off
  refine ⟨V.pos, by rw [h.1]; exact V.len, V.le_cap, ?_, ?_⟩
  · intro j hj
    rw [← V.oct0 j hj]; exact h.head j 0 (by omega)
  · intro j hj
    rw [← V.oct1 j hj]; exact h.head j 1 (by omega)

end

/-- Octet addresses of the payload bytes of packets `j..p`. -/
def addrs (k : Sx) (p : Nat) (sz : Nat → Nat) (j : Nat) : List Nat :=
  (List.range' j (p - j)).flatMap fun j => (List.range (sz j)).map fun i => k.addr (k.cap * j + i)

theorem addrs_lt (k : Sx) {p : Nat} (sz : Nat → Nat) {j : Nat} (h : j < p) :
    k.addrs p sz j = (List.range (sz j)).map (fun i => k.addr (k.cap * j + i)) ++ k.addrs p sz (j + 1) := by
  unfold addrs
  rw [show p - j = (p - (j + 1)) + 1 by omega, List.range'_succ, List.flatMap_cons]

theorem addrs_ge (k : Sx) {p : Nat} (sz : Nat → Nat) {j : Nat} (h : p ≤ j) : k.addrs p sz j = [] := by
  unfold addrs
  rw [show p - j = 0 by omega]; rfl

theorem le_addrs (k : Sx) {p : Nat} (sz : Nat → Nat) {j a : Nat} (h : a ∈ k.addrs p sz j) :
    4 * (k.stride * j) ≤ a := by
  unfold addrs at h
  rw [List.mem_flatMap] at h
  obtain ⟨i, hi, h⟩ := h
  rw [List.mem_map] at h
  obtain ⟨t, _, rfl⟩ := h
  have hi : j ≤ i := (List.mem_range'_1.mp hi).1
  have h1 : ¬ k.addr (k.cap * i + t) < 4 * (k.stride * j) := by
    rw [addr_lt_iff]
    have : k.cap * j ≤ k.cap * i := Nat.mul_le_mul_left _ hi
    omega
  omega

theorem restFrom_addrs (k : Sx) (b : Buf .ump) {p : Nat} {sz : Nat → Nat}
    (hs : ∀ j, j < p → sz j ≤ k.cap) (j : Nat) :
    k.restFrom b p sz j = (k.addrs p sz j).map (k.byteD b) := by
  unfold restFrom addrs
  rw [List.map_flatMap]
  rw [List.flatMap, List.flatMap]
  congr 1
  apply List.map_congr_left
  intro i hi
  have hi := List.mem_range'_1.mp hi
  unfold packetBytes
  rw [List.map_map]
  apply List.map_congr_left
  intro t ht
  have ht : t < sz i := by simpa using ht
  have := hs i (by omega)
  simp only [Function.comp]
  rw [addr_mul_add _ _ _ (by omega)]

/-- The inner loop copies `m` octets down. -/
theorem compactPacket_spec (k : Sx) (src : Nat) : ∀ (m i : Nat) (b : Buf .ump) (dp di : Nat),
    di < k.cap → k.cap * dp + di ≤ k.cap * src + i → i + m ≤ k.cap →
    k.stride * src + k.stride ≤ b.length →
    ∃ b' dp' di', k.compactPacket src (List.range' i m) b dp di = .ok (b', dp', di') ∧
      di' < k.cap ∧ k.cap * dp' + di' = k.cap * dp + di + m ∧ b'.length = b.length ∧
      (∀ t, t < m → octetAt b' (k.addr (k.cap * dp + di + t)) =
        octetAt b (k.addr (k.cap * src + (i + t)))) ∧
      ∀ x, (∀ t, t < m → x ≠ k.addr (k.cap * dp + di + t)) → octetAt b' x = octetAt b x := by
  intro m
  induction m with
  | zero =>
    intro i b dp di h1 _ _ _
    exact ⟨b, dp, di, rfl, h1, rfl, rfl, fun t h => by omega, fun _ _ => rfl⟩
  | succ m ih =>
    intro i b dp di h1 h2 h3 h4
    have hsrc : k.addr (k.cap * src + i) = 4 * (k.stride * src) + k.off + i :=
      k.addr_mul_add _ _ (by omega)
    have hdst : k.addr (k.cap * dp + di) = 4 * (k.stride * dp) + k.off + di :=
      k.addr_mul_add _ _ h1
    have hco := k.cap_off
    have hle : k.addr (k.cap * dp + di) ≤ k.addr (k.cap * src + i) := by
      rcases Nat.lt_or_eq_of_le h2 with h | h
      · exact Nat.le_of_lt (k.addr_lt_addr h)
      · rw [h]; exact Nat.le_refl _
    obtain ⟨b1, e1, e2, e3⟩ := copyOctet_ok (b := b) (s := k.addr (k.cap * src + i))
      (d := k.addr (k.cap * dp + di)) (by omega) (by omega)
    -- the position after this octet
    have hstep : ∃ dp1 di1, (if di + 1 = k.cap then
          k.compactPacket src (List.range' (i + 1) m) b1 (dp + 1) 0
        else k.compactPacket src (List.range' (i + 1) m) b1 dp (di + 1)) =
          k.compactPacket src (List.range' (i + 1) m) b1 dp1 di1 ∧ di1 < k.cap ∧
        k.cap * dp1 + di1 = k.cap * dp + di + 1 := by
      by_cases hd : di + 1 = k.cap
      · exact ⟨dp + 1, 0, if_pos hd, k.cap_pos, by rw [Nat.mul_succ]; omega⟩
      · exact ⟨dp, di + 1, if_neg hd, by omega, by omega⟩
    obtain ⟨dp1, di1, s1, s2, s3⟩ := hstep
    obtain ⟨b', dp', di', i1, i2, i3, i4, i5, i6⟩ := ih (i + 1) b1 dp1 di1 s2 (by omega) (by omega)
      (by rw [e2]; exact h4)
    refine ⟨b', dp', di', ?_, i2, by omega, by rw [i4, e2], ?_, ?_⟩
    · rw [List.range'_succ]
      simp only [compactPacket]
      unfold copyOctet at e1
      rw [hsrc, hdst] at e1
      rw [show (4 * (k.stride * src) + k.off + i) / 4 = src * k.stride + (i + k.off) / 4 by
          rw [Nat.mul_comm k.stride src]; omega,
        show (4 * (k.stride * src) + k.off + i) % 4 = (i + k.off) % 4 by omega,
        show (4 * (k.stride * dp) + k.off + di) / 4 = dp * k.stride + (di + k.off) / 4 by
          rw [Nat.mul_comm k.stride dp]; omega,
        show (4 * (k.stride * dp) + k.off + di) % 4 = (di + k.off) % 4 by omega] at e1
      obtain ⟨w, hw, e1⟩ := bind_inv e1
      rw [hw]
      simp only [Res.ok_bind]
      rw [e1]
      simp only [Res.ok_bind]
      rw [s1, i1]
    · intro t ht
      cases t with
      | zero =>
        rw [Nat.add_zero, Nat.add_zero, i6 _ (by
          intro t _ e; have := k.addr_inj e; omega), e3, if_pos rfl]
      | succ t =>
        have := i5 t (by omega)
        rw [show k.cap * dp1 + di1 + t = k.cap * dp + di + (t + 1) by omega,
          show i + 1 + t = i + (t + 1) by omega] at this
        rw [this, e3, if_neg (by intro e; have := k.addr_inj e; omega)]
    · intro x hx
      rw [i6 x (by
        intro t ht
        have := hx (t + 1) (by omega)
        rwa [show k.cap * dp + di + (t + 1) = k.cap * dp1 + di1 + t by omega] at this),
        e3, if_neg (by simpa using hx 0 (by omega))]

/-- The outer loop moves all remaining payload octets down. -/
theorem compactLoop_spec (k : Sx) (g : BitVec 4) (p : Nat) (sz : Nat → Nat) (hp : 2 ≤ p) :
    ∀ (m fuel : Nat) (b : Buf .ump) (src dp di : Nat), Valid k g p sz b → src < p →
      p - src = m + 1 → m < fuel → di < k.cap → k.cap * dp + di ≤ k.cap * src →
      ∃ b', k.compactLoop fuel b src dp di = .ok b' ∧ b'.length = b.length ∧
        (∀ t a, (k.addrs p sz src)[t]? = some a →
          octetAt b' (k.addr (k.cap * dp + di + t)) = octetAt b a) ∧
        ∀ x, (∀ t, t < (k.addrs p sz src).length → x ≠ k.addr (k.cap * dp + di + t)) →
          octetAt b' x = octetAt b x := by
  intro m
  induction m with
  | zero =>
    intro fuel b src dp di V hs hm hf h1 h2
    have hlast : src + 1 = p := by omega
    cases fuel with
    | zero => omega
    | succ fuel =>
      obtain ⟨w, w1, _, _, w4, w5⟩ := V.word hs
      have hsz := V.le_cap src hs
      have hlen := V.frame.le_mul hs
      obtain ⟨b', dp', di', e1, e2, e3, e4, e5, e6⟩ := k.compactPacket_spec src (sz src) 0 b dp di
        h1 (by omega) (by omega) hlen
      have hst : U32.nibble w 2 = 0x3 := by
        rw [w4]; unfold stat; rw [if_neg (by omega), if_neg (by omega), if_pos hlast]
      have haddrs : k.addrs p sz src = (List.range (sz src)).map (fun i => k.addr (k.cap * src + i)) := by
        rw [addrs_lt k sz hs, addrs_ge k sz (by omega), List.append_nil]
      refine ⟨b', ?_, e4, ?_, ?_⟩
      · unfold compactLoop at'
        rw [Nat.mul_comm src, w1]
        simp only [Res.ok_bind]
        rw [if_neg (by rw [hst]; decide)]
        have := V.frame.head src hs
        obtain ⟨w', a1, _, a3⟩ := this
        rw [w1] at a1; cases a1
        rw [a3]
        simp only [Res.ok_bind]
        rw [List.range_eq_range', e1]
        simp only [Res.ok_bind]
        rw [if_pos hst]; rfl
      · intro t a ha
        rw [haddrs, List.getElem?_map] at ha
        by_cases ht : t < sz src
        · rw [List.getElem?_range ht] at ha
          simp only [Option.map_some, Option.some.injEq] at ha
          have := e5 t ht
          rw [Nat.zero_add] at this
          rw [this, ha]
        · rw [List.getElem?_eq_none (by simp; omega)] at ha; simp at ha
      · intro x hx
        apply e6
        intro t ht
        exact hx t (by rw [haddrs]; simpa using ht)
  | succ m ih =>
    intro fuel b src dp di V hs hm hf h1 h2
    cases fuel with
    | zero => omega
    | succ fuel =>
      obtain ⟨w, w1, _, _, w4, w5⟩ := V.word hs
      have hsz := V.le_cap src hs
      have hlen := V.frame.le_mul hs
      obtain ⟨b1, dp', di', e1, e2, e3, e4, e5, e6⟩ := k.compactPacket_spec src (sz src) 0 b dp di
        h1 (by omega) (by omega) hlen
      have hne0 : U32.nibble w 2 ≠ 0x0 := by
        rw [w4]; unfold stat; rw [if_neg (by omega)]
        split
        · decide
        · rw [if_neg (by omega)]; decide
      have hne3 : U32.nibble w 2 ≠ 0x3 := by
        rw [w4]; unfold stat; rw [if_neg (by omega)]
        split
        · decide
        · rw [if_neg (by omega)]; decide
      have hsame : SameHeads k b b1 := by
        refine ⟨e4, fun x hx => e6 x (fun t _ => hx _), septets_copy fun x => ?_⟩
        by_cases hx : ∃ t, t < sz src ∧ x = k.addr (k.cap * dp + di + t)
        · obtain ⟨t, ht, rfl⟩ := hx
          exact ⟨_, e5 t ht⟩
        · exact ⟨x, e6 x fun t ht e => hx ⟨t, ht, e⟩⟩
      have hmul : k.cap * (src + 1) = k.cap * src + k.cap := Nat.mul_succ _ _
      obtain ⟨b', i1, i2, i3, i4⟩ := ih fuel b1 (src + 1) dp' di' (hsame.valid V) (by omega)
        (by omega) (by omega) e2 (by omega)
      have haddrs := addrs_lt k sz hs
      have hlenA : (k.addrs p sz src).length = sz src + (k.addrs p sz (src + 1)).length := by
        rw [haddrs]; simp
      refine ⟨b', ?_, by rw [i2, e4], ?_, ?_⟩
      · unfold compactLoop at'
        rw [Nat.mul_comm src, w1]
        simp only [Res.ok_bind]
        rw [if_neg hne0]
        have := V.frame.head src hs
        obtain ⟨w', a1, _, a3⟩ := this
        rw [w1] at a1; cases a1
        rw [a3]
        simp only [Res.ok_bind]
        rw [List.range_eq_range', e1]
        simp only [Res.ok_bind]
        rw [if_neg hne3]
        exact i1
      · intro t a ha
        rw [haddrs] at ha
        by_cases ht : t < sz src
        · rw [List.getElem?_append_left (by simpa using ht), List.getElem?_map,
            List.getElem?_range ht] at ha
          simp only [Option.map_some, Option.some.injEq] at ha
          have := e5 t ht
          rw [Nat.zero_add] at this
          rw [i4 _ (by intro u _ e; have := k.addr_inj e; omega), this, ha]
        · rw [List.getElem?_append_right (by simpa using ht), List.length_map,
            List.length_range] at ha
          have := i3 (t - sz src) a ha
          rw [show k.cap * dp' + di' + (t - sz src) = k.cap * dp + di + t by omega] at this
          rw [this]
          apply e6
          intro u hu e
          have h5 := k.le_addrs sz (List.mem_of_getElem? ha)
          have h6 : k.addr (k.cap * dp + di + u) < 4 * (k.stride * (src + 1)) :=
            k.addr_lt_iff.mpr (by omega)
          omega
      · intro x hx
        rw [i4 x (by
          intro t ht
          have := hx (sz src + t) (by omega)
          rwa [show k.cap * dp + di + (sz src + t) = k.cap * dp' + di' + t by omega] at this)]
        apply e6
        intro t ht
        exact hx t (by omega)

/-- Lengths. -/
theorem length_addrs_le (k : Sx) {p : Nat} {sz : Nat → Nat} (hs : ∀ j, j < p → sz j ≤ k.cap) :
    ∀ (m j : Nat), p - j = m → j ≤ p → (k.addrs p sz j).length ≤ k.cap * (p - j) := by
  intro m
  induction m with
  | zero => intro j hm hj; rw [addrs_ge k sz (by omega)]; simp
  | succ m ih =>
    intro j hm hj
    have := ih (j + 1) (by omega) (by omega)
    have := hs j (by omega)
    rw [addrs_lt k sz (by omega), List.length_append, List.length_map, List.length_range,
      show p - j = (p - (j + 1)) + 1 by omega, Nat.mul_succ]
    omega

theorem length_addrs_full (k : Sx) {p : Nat} {sz : Nat → Nat} (hf : ∀ j, j + 1 < p → sz j = k.cap) :
    ∀ (m j : Nat), p - j = m + 1 → (k.addrs p sz j).length = k.cap * m + sz (p - 1) := by
  intro m
  induction m with
  | zero =>
    intro j hm
    rw [addrs_lt k sz (by omega), addrs_ge k sz (by omega)]
    simp; congr 1; omega
  | succ m ih =>
    intro j hm
    rw [addrs_lt k sz (by omega), List.length_append, ih (j + 1) (by omega), List.length_map,
      List.length_range, hf j (by omega), Nat.mul_succ]
    omega

/-- Payload of a message. -/
def Valid.payload {k : Sx} {g : BitVec 4} {p : Nat} {sz : Nat → Nat} {b : Buf .ump}
    (_ : Valid k g p sz b) : List k.Byte := k.restFrom b p sz 0

theorem byteD_of_octet {k : Sx} {b : Buf .ump} {a : Nat} (h : a < 4 * b.length) :
    (octetAt b a).map k.ofOctet = some (k.byteD b a) := by
  unfold byteD
  rw [octetAt_lt h]; rfl

/-- A message whose packets are all full but the last is packed. -/
theorem Valid.packed {k : Sx} {g : BitVec 4} {p : Nat} {sz : Nat → Nat} {b : Buf .ump}
    (V : Valid k g p sz b) (hf : ∀ j, j + 1 < p → sz j = k.cap) :
    Packed k g p b V.payload := by
  have hpos := V.pos
  have hlen : V.payload.length = k.cap * (p - 1) + sz (p - 1) := by
    unfold Valid.payload
    rw [restFrom_addrs k b V.le_cap, List.length_map, length_addrs_full k hf (p - 1) 0 (by omega)]
  have hsz := V.le_cap (p - 1) (by omega)
  have hmul : k.cap * p = k.cap * (p - 1) + k.cap := by
    rw [← Nat.mul_succ]; congr 1; omega
  have hfill : ∀ j, j < p → k.fillSize p V.payload.length j = sz j := by
    intro j hj
    unfold fillSize
    split
    · next e => rw [hlen, show j = p - 1 by omega]; omega
    · exact (hf j (by omega)).symm
  refine ⟨V.pos, V.len, by omega, by omega, V.oct0, ?_, ?_⟩
  · intro j hj
    unfold sizeOctet
    rw [hfill j hj]
    exact V.oct1 j hj
  · intro i hi
    have hA : ∀ (m j : Nat), p - j = m + 1 → ∀ i, i < (k.addrs p sz j).length →
        (k.addrs p sz j)[i]? = some (k.addr (k.cap * j + i)) := by
      intro m
      induction m with
      | zero =>
        intro j hm i hi
        rw [addrs_lt k sz (by omega), addrs_ge k sz (by omega), List.append_nil] at hi ⊢
        have hi : i < sz j := by simpa using hi
        rw [List.getElem?_map, List.getElem?_range hi]; rfl
      | succ m ih =>
        intro j hm i hi
        rw [addrs_lt k sz (by omega)] at hi ⊢
        rw [List.length_append, List.length_map, List.length_range] at hi
        by_cases h : i < sz j
        · rw [List.getElem?_append_left (by simpa using h), List.getElem?_map, List.getElem?_range h]
          rfl
        · rw [List.getElem?_append_right (by simpa using h), List.length_map, List.length_range,
            ih (j + 1) (by omega) _ (by omega), hf j (by omega), Nat.mul_succ]
          have := hf j (by omega)
          congr 2; omega
    have hmap : V.payload = (k.addrs p sz 0).map (k.byteD b) := restFrom_addrs k b V.le_cap 0
    have hi' : i < (k.addrs p sz 0).length := by rw [hmap] at hi; simpa using hi
    have := hA (p - 1) 0 (by omega) i hi'
    rw [Nat.mul_zero, Nat.zero_add] at this
    rw [hmap, List.getElem?_map, this]
    apply byteD_of_octet
    have h1 : k.addr i < 4 * (k.stride * p) := k.addr_lt_iff.mpr (by omega)
    have := V.len
    omega

/-- Rewriting the headers of a buffer whose payload octets are in place. -/
theorem keep_resize {k : Sx} {b : Buf .ump} {g : BitVec 4} {l : List k.Byte}
    (hg : ∃ w, b[0]? = some w ∧ U32.nibble w 1 = g) (hl : k.stride * k.count l.length ≤ b.length)
    (hb : ∀ i, i < l.length → (octetAt b (k.addr i)).map k.ofOctet = l[i]?) :
    ∃ b', k.tryResize .keep b l.length = .ok (b', none) ∧
      Resized k g (k.count l.length) l.length b b' ∧ Packed k g (k.count l.length) b' l := by
  obtain ⟨b', e1, r⟩ := k.tryResize_fine (m := .keep) (b := b) (b1 := b) (n := l.length) rfl hl hg
  obtain ⟨l', f1, f2, f3, f4⟩ := r.packed hl
  have : l' = l := by
    apply List.ext_getElem?
    intro i
    by_cases hi : i < l.length
    · rw [← f2.bytes i (by omega), f3 i hi, hb i hi]
    · rw [List.getElem?_eq_none (by omega), List.getElem?_eq_none (by omega)]
  subst this
  exact ⟨b', e1, r, f2⟩

/-- `compact()` leaves a packed message with the same payload. -/
theorem Valid.compact_eq {k : Sx} {g : BitVec 4} {p : Nat} {sz : Nat → Nat} {b : Buf .ump}
    (V : Valid k g p sz b) (hd : k.isCompact b = true → ∀ j, j + 1 < p → sz j = k.cap) :
    ∃ b', k.compact b = .ok b' ∧ (∃ p', Packed k g p' b' V.payload) ∧ b'.length = b.length ∧
      (k.isCompact b = true → b' = b) ∧ (∀ I fixed, Inv k I fixed → I b → I b') ∧
      (∀ j, j < p → octetAt b' (4 * (k.stride * j)) = some (k.typOctet g)) ∧
      ∀ j r, r < 2 → k.count V.payload.length ≤ j →
        octetAt b' (4 * (k.stride * j) + r) = octetAt b (4 * (k.stride * j) + r) := by
  unfold compact
  by_cases hc : k.isCompact b = true
  · rw [if_pos hc]
    exact ⟨b, rfl, ⟨p, V.packed (hd hc)⟩, rfl, fun _ => rfl, fun _ _ _ h => h, V.oct0, fun _ _ _ _ => rfl⟩
  · rw [if_neg hc]
    have hps : k.payloadSize b = .ok V.payload.length := V.frame.payloadSize_eq
    rw [hps]
    simp only [Res.ok_bind]
    have hmap : V.payload = (k.addrs p sz 0).map (k.byteD b) := restFrom_addrs k b V.le_cap 0
    have hn : V.payload.length ≤ k.cap * p := by
      rw [hmap, List.length_map]
      have := length_addrs_le k V.le_cap p 0 (by omega) (by omega)
      simpa using this
    have hcount : k.stride * k.count V.payload.length ≤ b.length := by
      have := (k.count_le_iff _ p V.pos).mpr hn
      have : k.stride * k.count V.payload.length ≤ k.stride * p := Nat.mul_le_mul_left _ this
      have := V.len
      omega
    obtain ⟨w, w1, _, w3, w4, _⟩ := V.word V.pos
    rw [Nat.mul_zero] at w1
    have haddr : ∀ i, i < V.payload.length → k.addr i < 4 * b.length := by
      intro i hi
      have h1 : k.addr i < 4 * (k.stride * p) := k.addr_lt_iff.mpr (by omega)
      have := V.len
      omega
    -- the state after the loop
    have hloop : ∃ b1, k.compactLoop (b.length + 1) b 0 0 0 = .ok b1 ∧ SameHeads k b b1 ∧
        ∀ i, i < V.payload.length → (octetAt b1 (k.addr i)).map k.ofOctet = V.payload[i]? := by
      by_cases hp : 2 ≤ p
      · have hfuel := V.frame.fuel_ok 0
        obtain ⟨b1, e1, e2, e3, e4⟩ := compactLoop_spec k g p sz hp (p - 1) (b.length + 1) b 0 0 0 V
          V.pos (by omega) (by omega) k.cap_pos (by omega)
        refine ⟨b1, e1, ⟨e2, fun x hx => e4 x (fun t _ => hx _), septets_copy fun x => ?_⟩, ?_⟩
        · by_cases hx : ∃ t, t < (k.addrs p sz 0).length ∧ x = k.addr (k.cap * 0 + 0 + t)
          · obtain ⟨t, ht, rfl⟩ := hx
            exact ⟨_, e3 t _ (List.getElem?_eq_getElem ht)⟩
          · exact ⟨x, e4 x fun t ht e => hx ⟨t, ht, e⟩⟩
        intro i hi
        have hi' : i < (k.addrs p sz 0).length := by rw [hmap] at hi; simpa using hi
        have := e3 i _ (List.getElem?_eq_getElem hi')
        rw [show k.cap * 0 + 0 + i = i by omega] at this
        rw [this, hmap, List.getElem?_map, List.getElem?_eq_getElem hi', Option.map_some]
        apply byteD_of_octet
        have h5 := haddr i hi
        have : (octetAt b1 (k.addr i)).isSome := by rw [octetAt_isSome, e2]; exact h5
        rw [‹octetAt b1 (k.addr i) = _›, octetAt_isSome] at this
        exact this
      · have hp1 : p = 1 := by have := V.pos; omega
        subst hp1
        refine ⟨b, ?_, SameHeads.refl b, ?_⟩
        · unfold compactLoop at'
          rw [Nat.zero_mul, w1]
          simp only [Res.ok_bind]
          rw [if_pos (by rw [w4]; rfl)]; rfl
        · intro i hi
          exact (V.packed (fun j hj => by omega)).bytes i hi
    obtain ⟨b1, l1, l2, l3⟩ := hloop
    rw [l1]
    simp only [Res.ok_bind]
    obtain ⟨w', w1', _, w3', _⟩ := (l2.valid V).word V.pos
    rw [Nat.mul_zero] at w1'
    obtain ⟨b', r1, r2, r3⟩ := keep_resize (k := k) (b := b1) (g := g) (l := V.payload) ⟨w', w1', w3'⟩
      (by rw [l2.1]; exact hcount) l3
    rw [r1]
    refine ⟨b', rfl, ⟨_, r3⟩, by rw [r2.len, l2.1], fun h => absurd h hc,
      fun I _ hI h => hI.resized r2 (hI.same l2 h), ?_, ?_⟩
    · intro j hj
      by_cases h : j < k.count V.payload.length
      · exact r2.oct0 j h
      · rw [r2.beyond _ (by
          have := Nat.mul_le_mul_left k.stride (show k.count V.payload.length ≤ j by omega)
          omega)]
        have := l2.head j 0 (by have := k.two_le_off; omega)
        rw [Nat.add_zero] at this
        rw [this]
        exact V.oct0 j hj
    · intro j r hr h
      rw [r2.beyond _ (by
        have := Nat.mul_le_mul_left k.stride h
        omega)]
      exact l2.head j r (by have := k.two_le_off; omega)

/-- Sysex8 checks every packet of the message, sysex7 only those with an even number. -/
def checked : Sx → Nat → Prop
  | s7, j => j % 2 = 0
  | s8, _ => True

/-- What the compactness check sees. -/
theorem Valid.of_isCompact {k : Sx} {g : BitVec 4} {p : Nat} {sz : Nat → Nat} {b : Buf .ump}
    (V : Valid k g p sz b) (h : k.isCompact b = true) :
    ∀ j, j + 1 < p → k.checked j → sz j = k.cap := by
  intro j hj hch
  unfold isCompact at h
  rw [List.all_eq_true] at h
  -- the four word group which starts with packet `j`
  have hi : ∃ i, 4 * i = k.stride * j := by
    cases k
    · refine ⟨j / 2, ?_⟩
      simp only [checked] at hch
      simp only [stride]; omega
    · exact ⟨j, rfl⟩
  obtain ⟨i, hi⟩ := hi
  have hlen : 4 * i + 4 ≤ b.length := by
    have h1 := V.len
    have h2 : k.stride * (j + 2) ≤ k.stride * p := Nat.mul_le_mul_left _ (by omega)
    cases k <;> simp only [stride] at * <;> omega
  have htyp : ∀ i' ≤ i, ∃ w, b[4 * i']? = some w ∧ U32.nibble w 0 = k.typ := by
    intro i' hi'
    have : ∃ j', j' < p ∧ 4 * i' = k.stride * j' := by
      cases k <;> simp only [stride] at hi ⊢
      · exact ⟨2 * i', by omega, by omega⟩
      · exact ⟨i', by omega, rfl⟩
    obtain ⟨j', h1, h2⟩ := this
    obtain ⟨w, e1, e2, _⟩ := V.word h1
    exact ⟨w, by rw [h2]; exact e1, e2⟩
  have hmem : (b.drop (4 * i)).take 4 ∈
      (chunksExact 4 b).takeWhile (fun p => U32.nibble (head0 p) 0 == k.typ) := by
    rw [chunksExact_eq_map (by omega)]
    have hil : i < b.length / 4 := by omega
    have hsplit : List.range (b.length / 4) = List.range (i + 1) ++
        List.range' (i + 1) (b.length / 4 - (i + 1)) := by
      have := List.range'_append_1 (s := 0) (m := i + 1) (n := b.length / 4 - (i + 1))
      rw [Nat.zero_add] at this
      rw [List.range_eq_range', List.range_eq_range', this]
      congr 1; omega
    rw [hsplit, List.map_append, List.takeWhile_append_of_pos]
    · apply List.mem_append_left
      rw [List.mem_map]
      exact ⟨i, by simp, rfl⟩
    · intro c hc
      rw [List.mem_map] at hc
      obtain ⟨i', hi', rfl⟩ := hc
      obtain ⟨w, e1, e2⟩ := htyp i' (by have := List.mem_range.mp hi'; omega)
      rw [head0_drop_take (by omega) e1, e2]
      simp
  have := h _ hmem
  obtain ⟨w, e1, e2, e3, e4, e5⟩ := V.word (show j < p by omega)
  rw [← hi] at e1
  rw [head0_drop_take (by omega) e1, e4, e5] at this
  have hst : (stat p j == 0x1 || stat p j == 0x2) = true := by
    unfold stat
    rw [if_neg (by omega)]
    split
    · rfl
    · rw [if_neg (by omega)]; rfl
  rw [hst] at this
  simp only [Bool.true_and, bne, Bool.not_not, beq_iff_eq] at this
  have h1 := V.le_cap j (by omega)
  have h2 := k.cap_bias
  have := congrArg BitVec.toNat this
  unfold fullNibble at this
  rw [BitVec.toNat_ofNat, BitVec.toNat_ofNat, Nat.mod_eq_of_lt (by omega),
    Nat.mod_eq_of_lt (by omega)] at this
  omega

end Sx

end Midi2
