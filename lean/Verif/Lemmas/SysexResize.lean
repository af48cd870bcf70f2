import Verif.Lemmas.SysexUmp

/-! Resizing a system exclusive message: header rewriting packet by packet. -/

namespace Midi2

namespace Sx

/-- Rewriting the first word of a packet, keeping octets 2 and 3. -/
theorem head_set {q : Buf .ump} (hq : 0 < q.length) (f : BitVec 32 → BitVec 32)
    (hf : ∀ w, U32.octet (f w) 2 = U32.octet w 2 ∧ U32.octet (f w) 3 = U32.octet w 3) :
    ∃ q', modifyAt q 0 f = .ok q' ∧ q'.length = q.length ∧ q'[0]? = some (f (q[0]'hq)) ∧
      ∀ r, 2 ≤ r → octetAt q' r = octetAt q r := by
  refine ⟨_, modifyAt_lt hq f, by simp, by simp [hq], ?_⟩
  intro r hr
  rw [octetAt_set hq]
  split
  · next e =>
    unfold octetAt
    rw [e, List.getElem?_eq_getElem hq]
    have : r % 4 = 2 ∨ r % 4 = 3 := by omega
    rcases this with h | h
    · rw [h, (hf _).1]; rfl
    · rw [h, (hf _).2]; rfl
  · rfl

theorem octetAt_zero {q : Buf .ump} {w : BitVec 32} (h : q[0]? = some w) (r : Nat) (hr : r < 4) :
    octetAt q r = some (U32.octet w r) := by
  unfold octetAt
  rw [show r / 4 = 0 by omega, show r % 4 = r by omega, h]; rfl

theorem zeroTail_spec (k : Sx) : ∀ (m r : Nat) (q : Buf .ump), k.off + r + m ≤ 4 * q.length →
    ∃ q', (List.range' r m).foldlM
        (fun p i => modifyAt p ((i + k.off) / 4) fun w => U32.setOctet w ((i + k.off) % 4) 0x0) q =
          .ok q' ∧ q'.length = q.length ∧
      ∀ x, octetAt q' x = if k.off + r ≤ x ∧ x < k.off + r + m then some 0 else octetAt q x := by
  intro m
  induction m with
  | zero =>
    intro r q _
    exact ⟨q, rfl, rfl, fun x => by rw [if_neg (by omega)]⟩
  | succ m ih =>
    intro r q h
    obtain ⟨q1, e1, e2, e3⟩ := modify_octet (b := q) (a := r + k.off) (by omega) 0x0
    obtain ⟨q', i1, i2, i3⟩ := ih (r + 1) q1 (by rw [e2]; omega)
    refine ⟨q', ?_, by rw [i2, e2], ?_⟩
    · rw [List.range'_succ, List.foldlM_cons, e1]; exact i1
    · intro x
      rw [i3, e3]
      by_cases h1 : x = r + k.off
      · rw [if_neg (show ¬(k.off + (r + 1) ≤ x ∧ x < k.off + (r + 1) + m) by omega), if_pos h1,
          if_pos (by omega)]
      · rw [if_neg h1]
        by_cases h2 : k.off + r ≤ x ∧ x < k.off + r + (m + 1)
        · rw [if_pos h2, if_pos (by omega)]
        · rw [if_neg h2, if_neg (by omega)]

/-- The octets of the end packet which a resize zeroes. -/
def Padding (k : Sx) (p n j r : Nat) : Prop :=
  2 ≤ p ∧ j + 1 = p ∧ n % k.cap ≠ 0 ∧ k.off + n % k.cap ≤ r ∧ r < 4 * k.stride

instance (k : Sx) (p n j r : Nat) : Decidable (k.Padding p n j r) := by
  unfold Padding; infer_instance

/-- Packet `j` of `p` before and after a resize to `n` bytes. -/
structure HeadRel (k : Sx) (g : BitVec 4) (p n j : Nat) (q q' : Buf .ump) : Prop where
  len : q'.length = q.length
  oct0 : octetAt q' 0 = some (k.typOctet g)
  oct1 : octetAt q' 1 = some (k.sizeOctet p n j)
  rest : ∀ r, 2 ≤ r → octetAt q' r = if k.Padding p n j r then some 0 else octetAt q r

theorem octet0_nibbles (w : BitVec 32) : U32.octet w 0 = U32.nibble w 0 ++ U32.nibble w 1 :=
  U32.octet_nibbles w 0 (by omega)

theorem octet1_nibbles (w : BitVec 32) : U32.octet w 1 = U32.nibble w 2 ++ U32.nibble w 3 :=
  U32.octet_nibbles w 1 (by omega)

/-- Keeping octets 2 and 3. -/
def KeepsLow (f : BitVec 32 → BitVec 32) : Prop :=
  ∀ w, U32.octet (f w) 2 = U32.octet w 2 ∧ U32.octet (f w) 3 = U32.octet w 3

theorem keepsLow_setNibble (i : Nat) (hi : i < 4) (v : BitVec 4) {f : BitVec 32 → BitVec 32}
    (hf : KeepsLow f) : KeepsLow fun w => U32.setNibble (f w) i v := by
  intro w
  have := hf w
  exact ⟨by rw [U32.octet_setNibble_ne _ _ _ (by omega) (by omega) (by omega)]; exact this.1,
    by rw [U32.octet_setNibble_ne _ _ _ (by omega) (by omega) (by omega)]; exact this.2⟩

theorem keepsLow_id : KeepsLow fun w => w := fun _ => ⟨rfl, rfl⟩

theorem sizeNibble_ok (k : Sx) {n : Nat} (h : n ≤ k.cap) :
    k.sizeNibble n = .ok (BitVec.ofNat 4 (n + k.bias)) := by
  unfold sizeNibble u4New
  have := k.cap_bias
  rw [Nat.mod_eq_of_lt (by omega), if_pos (by omega)]

theorem fillSize_last (k : Sx) {n : Nat} (h : 2 ≤ k.count n) :
    k.fillSize (k.count n) n (k.count n - 1) =
      if n % k.cap = 0 then k.cap else n % k.cap := by
  unfold fillSize
  rw [if_pos (by omega)]
  unfold count at *
  by_cases h0 : n = 0
  · rw [if_pos h0] at h; omega
  · rw [if_neg h0] at *
    by_cases hz : n % k.cap = 0
    · rw [if_pos hz]
      cases k <;> simp only [cap] at * <;> omega
    · rw [if_neg hz]
      cases k <;> simp only [cap] at * <;> omega

theorem restPackets_spec (k : Sx) (n : Nat) (g : BitVec 4) : ∀ (ps : List (Buf .ump)) (j : Nat),
    (∀ q ∈ ps, q.length = k.stride) → 0 < j → j + ps.length = k.count n →
    ∃ ps', k.restPackets n g ps = .ok ps' ∧ ps'.length = ps.length ∧
      ∀ i (h : i < ps.length) (h' : i < ps'.length),
        HeadRel k g (k.count n) n (j + i) ps[i] ps'[i] := by
  intro ps
  induction ps with
  | nil => intro j _ _ _; exact ⟨[], rfl, rfl, fun i h => by simp at h⟩
  | cons q ps ih =>
    intro j hl hj hc
    have hq : q.length = k.stride := hl q (by simp)
    have hq0 : 0 < q.length := by rw [hq]; exact k.stride_pos
    cases ps with
    | nil =>
      simp only [List.length_cons, List.length_nil] at hc
      have h2 : 2 ≤ k.count n := by omega
      have hjc : k.count n - 1 = j := by omega
      have hfs := k.fillSize_last h2
      rw [hjc] at hfs
      obtain ⟨q1, a1, a2, a3, a4⟩ := head_set hq0 _
        (keepsLow_setNibble 2 (by omega) 0x3 (keepsLow_setNibble 1 (by omega) g
          (keepsLow_setNibble 0 (by omega) k.typ keepsLow_id)))
      have hq1 : 0 < q1.length := by omega
      -- the size nibble written
      have hsize : ∀ s : BitVec 4, s = BitVec.ofNat 4 (k.fillSize (k.count n) n j + k.bias) →
          ∃ q2, modifyAt q1 0 (fun w => U32.setNibble w 3 s) = .ok q2 ∧ q2.length = q.length ∧
            octetAt q2 0 = some (k.typOctet g) ∧
            octetAt q2 1 = some (k.sizeOctet (k.count n) n j) ∧
            ∀ r, 2 ≤ r → octetAt q2 r = octetAt q r := by
        intro s hs
        obtain ⟨q2, c1, c2, c3, c4⟩ := head_set hq1 _ (keepsLow_setNibble 3 (by omega) s keepsLow_id)
        rw [List.getElem?_eq_getElem hq1] at a3
        rw [Option.some.inj a3] at c3
        refine ⟨q2, c1, by omega, ?_, ?_, fun r hr => by rw [c4 r hr, a4 r hr]⟩
        · rw [octetAt_zero c3 0 (by omega), octet0_nibbles]
          simp only [U32.nibble_setNibble, typOctet, Nat.reduceLT, if_true, if_false, Nat.reduceEqDiff]
        · rw [octetAt_zero c3 1 (by omega), octet1_nibbles]
          simp only [U32.nibble_setNibble, sizeOctet, Nat.reduceLT, if_true, if_false, Nat.reduceEqDiff]
          rw [← hs]
          congr 2
          unfold stat
          rw [if_neg (by omega), if_neg (by omega), if_pos (by omega)]
      unfold restPackets
      rw [a1]
      simp only [Res.ok_bind]
      by_cases hz : n % k.cap = 0
      · rw [if_pos hz]
        rw [if_pos hz] at hfs
        obtain ⟨q2, c1, c2, c3, c4, c5⟩ := hsize k.fullNibble (by rw [hfs]; rfl)
        rw [c1]
        refine ⟨[q2], rfl, rfl, ?_⟩
        intro i h h'
        have : i = 0 := by simp at h; omega
        subst this
        refine ⟨c2, c3, c4, fun r hr => ?_⟩
        rw [if_neg (by intro c; exact c.2.2.1 hz)]
        exact c5 r hr
      · rw [if_neg hz]
        rw [if_neg hz] at hfs
        have hlt := Nat.mod_lt n k.cap_pos
        rw [k.sizeNibble_ok (Nat.le_of_lt hlt)]
        simp only [Res.ok_bind]
        obtain ⟨q2, c1, c2, c3, c4, c5⟩ := hsize _ (by rw [hfs])
        rw [c1]
        simp only [Res.ok_bind]
        have hco := k.cap_off
        have ho := k.two_le_off
        obtain ⟨q3, d1, d2, d3⟩ := k.zeroTail_spec (k.cap - n % k.cap) (n % k.cap) q2 (by
          rw [c2, hq]; omega)
        refine ⟨[q3], ?_, rfl, ?_⟩
        · unfold zeroTail
          rw [d1]; rfl
        · intro i h h'
          have : i = 0 := by simp at h; omega
          subst this
          refine ⟨d2.trans c2, ?_, ?_, fun r hr => ?_⟩
          · exact (d3 0).trans ((if_neg (by omega)).trans c3)
          · exact (d3 1).trans ((if_neg (by omega)).trans c4)
          · refine (d3 r).trans ?_
            by_cases hp : k.Padding (k.count n) n j r
            · rw [if_pos (by obtain ⟨_, _, _, p4, p5⟩ := hp; omega)]
              exact (if_pos hp).symm
            · rw [if_neg (by
                intro c; apply hp
                exact ⟨h2, by omega, hz, by omega, by omega⟩)]
              rw [c5 r hr]
              exact (if_neg hp).symm
    | cons q' ps =>
      simp only [List.length_cons] at hc
      obtain ⟨ps', i1, i2, i3⟩ := ih (j + 1) (fun x hx => hl x (by simp [hx])) (by omega)
        (by simp only [List.length_cons]; omega)
      obtain ⟨q1, a1, a2, a3, a4⟩ := head_set hq0 _
        (keepsLow_setNibble 3 (by omega) k.fullNibble
          (keepsLow_setNibble 2 (by omega) 0x2 (keepsLow_setNibble 1 (by omega) g
          (keepsLow_setNibble 0 (by omega) k.typ keepsLow_id))))
      refine ⟨q1 :: ps', ?_, by simp [i2], ?_⟩
      · unfold restPackets
        rw [a1]
        simp only [Res.ok_bind]
        rw [i1]; rfl
      · intro i h h'
        cases i with
        | zero =>
          refine ⟨a2, ?_, ?_, fun r hr => ?_⟩
          · refine (octetAt_zero a3 0 (by omega)).trans ?_
            rw [octet0_nibbles]
            simp only [U32.nibble_setNibble, typOctet, Nat.reduceLT, if_true, if_false, Nat.reduceEqDiff]
          · refine (octetAt_zero a3 1 (by omega)).trans ?_
            rw [octet1_nibbles]
            simp only [U32.nibble_setNibble, sizeOctet, Nat.reduceLT, if_true, if_false, Nat.reduceEqDiff]
            unfold stat fillSize
            rw [if_neg (by omega), if_neg (by omega), if_neg (by omega), if_neg (by omega)]
            rfl
          · rw [if_neg (by intro c; have := c.2.1; omega)]
            exact a4 r hr
        | succ i =>
          simp only [List.length_cons] at h h'
          have := i3 i (by simp only [List.length_cons]; omega) (by omega)
          rw [show j + 1 + i = j + (i + 1) by omega] at this
          exact this

theorem packets_spec (k : Sx) (n : Nat) (ps : List (Buf .ump)) (hl : ∀ q ∈ ps, q.length = k.stride)
    (hc : ps.length = k.count n) (g : BitVec 4) (w : BitVec 32)
    (hw : ∀ q, ps[0]? = some q → q[0]? = some w) (hg : U32.nibble w 1 = g) :
    ∃ ps', k.packets n ps = .ok ps' ∧ ps'.length = ps.length ∧
      ∀ i (h : i < ps.length) (h' : i < ps'.length),
        HeadRel k g (k.count n) n i ps[i] ps'[i] := by
  cases ps with
  | nil => have := k.count_pos n; simp at hc; omega
  | cons q ps =>
    have hq : q.length = k.stride := hl q (by simp)
    have hq0 : 0 < q.length := by rw [hq]; exact k.stride_pos
    have hqw : q[0]'hq0 = w := by
      have := hw q rfl
      rw [List.getElem?_eq_getElem hq0] at this
      exact Option.some.inj this
    simp only [List.length_cons] at hc
    -- the new first word
    have hfirst : ∃ w', k.firstHead n ps.isEmpty w = .ok w' ∧
        U32.octet w' 0 = k.typOctet g ∧ U32.octet w' 1 = k.sizeOctet (k.count n) n 0 ∧
        U32.octet w' 2 = U32.octet w 2 ∧ U32.octet w' 3 = U32.octet w 3 := by
      unfold firstHead
      cases ps with
      | nil =>
        simp only [List.length_nil] at hc
        have hn : n ≤ k.cap := by
          have := (k.count_le_iff n 1 (by omega)).mp (by omega)
          omega
        simp only [List.isEmpty_nil, if_true]
        rw [k.sizeNibble_ok hn]
        refine ⟨_, rfl, ?_, ?_, ?_⟩
        · rw [octet0_nibbles]
          simp only [U32.nibble_setNibble, typOctet, Nat.reduceLT, if_true, if_false, Nat.reduceEqDiff, hg]
        · rw [octet1_nibbles]
          simp only [U32.nibble_setNibble, sizeOctet, Nat.reduceLT, if_true, if_false, Nat.reduceEqDiff]
          unfold stat fillSize
          rw [if_pos (by omega), if_pos (by omega), ← hc]
          simp
        · have := keepsLow_setNibble 3 (by omega) (BitVec.ofNat 4 (n + k.bias))
            (keepsLow_setNibble 2 (by omega) 0x0 (keepsLow_setNibble 0 (by omega) k.typ keepsLow_id)) w
          exact this
      | cons q' ps =>
        simp only [List.length_cons] at hc
        simp only [List.isEmpty_cons, Bool.false_eq_true, if_false]
        refine ⟨_, rfl, ?_, ?_, ?_⟩
        · rw [octet0_nibbles]
          simp only [U32.nibble_setNibble, typOctet, Nat.reduceLT, if_true, if_false, Nat.reduceEqDiff, hg]
        · rw [octet1_nibbles]
          simp only [U32.nibble_setNibble, sizeOctet, Nat.reduceLT, if_true, if_false, Nat.reduceEqDiff]
          unfold stat fillSize
          rw [if_neg (by omega), if_pos rfl, if_neg (by omega)]
          rfl
        · have := keepsLow_setNibble 3 (by omega) k.fullNibble
            (keepsLow_setNibble 2 (by omega) 0x1 (keepsLow_setNibble 0 (by omega) k.typ keepsLow_id)) w
          exact this
    obtain ⟨w', f1, f2, f3, f4, f5⟩ := hfirst
    have hg' : U32.nibble w' 1 = g := by
      have := U32.nibble_octet_lo w' 0 (by omega)
      rw [f2] at this
      rw [show 1 = 2 * 0 + 1 from rfl, this]
      exact append_lo _ _
    obtain ⟨ps', r1, r2, r3⟩ := restPackets_spec k n g ps 1 (fun x hx => hl x (by simp [hx]))
      (by omega) (by omega)
    refine ⟨q.set 0 w' :: ps', ?_, by simp [r2], ?_⟩
    · simp only [packets]
      rw [at'_lt hq0, hqw]
      simp only [Res.ok_bind]
      rw [f1]
      simp only [Res.ok_bind]
      rw [modifyAt_lt hq0, hg', r1]
      rfl
    · intro i h h'
      cases i with
      | zero =>
        have hz : (q.set 0 w')[0]? = some w' := by simp [hq0]
        refine ⟨by simp, ?_, ?_, fun r hr => ?_⟩
        · exact (octetAt_zero hz 0 (by omega)).trans (by rw [f2])
        · exact (octetAt_zero hz 1 (by omega)).trans (by rw [f3])
        · rw [if_neg (by intro c; have := c.1; have := c.2.1; omega)]
          refine (octetAt_set hq0 w' r).trans ?_
          split
          · next e =>
            unfold octetAt
            have : q[r / 4]? = some w := by rw [e, List.getElem?_eq_getElem hq0, hqw]
            refine Eq.trans ?_ (congrArg (Option.map _) this).symm
            have : r % 4 = 2 ∨ r % 4 = 3 := by omega
            rcases this with h | h
            · rw [h, f4]; rfl
            · rw [h, f5]; rfl
          · rfl
      | succ i =>
        simp only [List.length_cons] at h h'
        have := r3 i (by omega) (by omega)
        rw [Nat.add_comm] at this
        exact this

/-! ### Whole buffers -/

theorem flatten_getElem? {α : Type} {s : Nat} (hs : 0 < s) : ∀ (L : List (List α)),
    (∀ q ∈ L, q.length = s) → ∀ (j i : Nat), i < s →
    L.flatten[s * j + i]? = (L[j]?).bind (·[i]?)
  | [], _, j, i, _ => by simp
  | q :: L, h, 0, i, hi => by
    simp only [List.flatten_cons, Nat.mul_zero, Nat.zero_add]
    rw [List.getElem?_append_left (by rw [h q (by simp)]; exact hi)]
    rfl
  | q :: L, h, j + 1, i, hi => by
    have hq := h q (by simp)
    simp only [List.flatten_cons]
    rw [List.getElem?_append_right (by rw [hq, Nat.mul_succ]; omega), hq,
      show s * (j + 1) + i - s = s * j + i by rw [Nat.mul_succ]; omega,
      flatten_getElem? hs L (fun x hx => h x (by simp [hx])) j i hi]
    rfl

theorem length_flatten_uniform {α : Type} {s : Nat} : ∀ (L : List (List α)),
    (∀ q ∈ L, q.length = s) → L.flatten.length = s * L.length
  | [], _ => rfl
  | q :: L, h => by
    simp only [List.flatten_cons, List.length_append, List.length_cons]
    rw [length_flatten_uniform L (fun x hx => h x (by simp [hx])), h q (by simp), Nat.mul_succ]
    omega

theorem octetAt_packet (L : List (Buf .ump)) {s : Nat} (hs : 0 < s) (rest : Buf .ump)
    (hL : ∀ q ∈ L, List.length q = s) {j r : Nat} (hj : j < L.length) (hr : r < 4 * s) :
    octetAt (L.flatten ++ rest) (4 * (s * j) + r) = octetAt L[j] r := by
  unfold octetAt
  have e1 : (4 * (s * j) + r) / 4 = s * j + r / 4 := by omega
  have e2 : (4 * (s * j) + r) % 4 = r % 4 := by omega
  have hlen := length_flatten_uniform L hL
  have : s * (j + 1) ≤ s * L.length := Nat.mul_le_mul_left _ hj
  rw [Nat.mul_succ] at this
  rw [e1, e2, List.getElem?_append_left (by rw [hlen]; omega),
    flatten_getElem? hs L hL j (r / 4) (by omega), List.getElem?_eq_getElem hj]
  rfl

theorem octetAt_chunk (b : Buf .ump) (s i r : Nat) (hr : r < 4 * s) :
    octetAt ((b.drop i).take s) r = octetAt b (4 * i + r) := by
  unfold octetAt
  rw [List.getElem?_take_of_lt (by omega), List.getElem?_drop,
    show (4 * i + r) / 4 = i + r / 4 by omega, show (4 * i + r) % 4 = r % 4 by omega]

/-- A buffer before and after its headers were rewritten for `n` bytes in `p` packets. -/
structure Resized (k : Sx) (g : BitVec 4) (p n : Nat) (b b' : Buf .ump) : Prop where
  len : b'.length = b.length
  oct0 : ∀ j, j < p → octetAt b' (4 * (k.stride * j)) = some (k.typOctet g)
  oct1 : ∀ j, j < p → octetAt b' (4 * (k.stride * j) + 1) = some (k.sizeOctet p n j)
  rest : ∀ j r, j < p → 2 ≤ r → r < 4 * k.stride →
    octetAt b' (4 * (k.stride * j) + r) =
      if k.Padding p n j r then some 0 else octetAt b (4 * (k.stride * j) + r)
  beyond : ∀ a, 4 * (k.stride * p) ≤ a → octetAt b' a = octetAt b a

theorem rewrite_spec (k : Sx) (n : Nat) (g : BitVec 4) (b : Buf .ump)
    (hl : k.stride * k.count n ≤ b.length) (hg : ∃ w, b[0]? = some w ∧ U32.nibble w 1 = g) :
    ∃ cs', k.packets n ((chunksExact k.stride b).take (k.count n)) = .ok cs' ∧
      ((chunksExact k.stride b).take (k.count n)).length = k.count n ∧
      Resized k g (k.count n) n b (cs'.flatten ++ b.drop (k.stride * k.count n)) := by
  obtain ⟨w, hw, hg⟩ := hg
  have hs := k.stride_pos
  have hcnt := k.count_pos n
  have hle : k.count n ≤ b.length / k.stride := by
    rw [Nat.le_div_iff_mul_le hs, Nat.mul_comm]; exact hl
  have hcl : ((chunksExact k.stride b).take (k.count n)).length = k.count n := by
    rw [List.length_take, chunksExact_eq_map hs, List.length_map, List.length_range]
    omega
  have hmap : (chunksExact k.stride b).take (k.count n) =
      (List.range (k.count n)).map fun i => (b.drop (k.stride * i)).take k.stride := by
    rw [chunksExact_eq_map hs, ← List.map_take, List.take_range, Nat.min_eq_left hle]
  have hfit : ∀ i, i < k.count n → k.stride * i + k.stride ≤ b.length := by
    intro i hi
    have : k.stride * (i + 1) ≤ k.stride * k.count n := Nat.mul_le_mul_left _ hi
    rw [Nat.mul_succ] at this
    omega
  have huni : ∀ q ∈ (chunksExact k.stride b).take (k.count n), List.length q = k.stride := by
    rw [hmap]
    intro q hq
    rw [List.mem_map] at hq
    obtain ⟨i, hi, rfl⟩ := hq
    have := hfit i (by simpa using hi)
    rw [List.length_take, List.length_drop]; omega
  obtain ⟨ps', e1, e2, e3⟩ := packets_spec k n _ huni hcl g w (by
    intro q hq
    rw [hmap, List.getElem?_map, List.getElem?_range hcnt] at hq
    simp only [Option.map_some, Option.some.injEq] at hq
    rw [← hq, List.getElem?_take_of_lt hs, List.getElem?_drop]
    exact hw) hg
  refine ⟨ps', e1, hcl, ?_⟩
  rw [hcl] at e2
  have hrel : ∀ j (h : j < k.count n) (h' : j < ps'.length),
      HeadRel k g (k.count n) n j ((b.drop (k.stride * j)).take k.stride) ps'[j] := by
    intro j h h'
    have := e3 j (by rw [hcl]; exact h) h'
    have e : ((chunksExact k.stride b).take (k.count n))[j]'(by rw [hcl]; exact h) =
        (b.drop (k.stride * j)).take k.stride := by
      simp only [hmap, List.getElem_map, List.getElem_range]
    rwa [e] at this
  have huni' : ∀ q ∈ ps', List.length q = k.stride := by
    intro q hq
    obtain ⟨j, hj, rfl⟩ := List.getElem_of_mem hq
    have hjc : j < k.count n := by omega
    rw [(hrel j hjc hj).len, List.length_take, List.length_drop]
    have := hfit j hjc
    omega
  have hflen := length_flatten_uniform ps' huni'
  rw [e2] at hflen
  have hoct : ∀ j r, j < k.count n → r < 4 * k.stride →
      ∃ h', octetAt (ps'.flatten ++ b.drop (k.stride * k.count n)) (4 * (k.stride * j) + r) =
        octetAt (ps'[j]'h') r := by
    intro j r hj hr
    exact ⟨by omega, octetAt_packet ps' hs _ huni' (by omega) hr⟩
  refine ⟨?_, ?_, ?_, ?_, ?_⟩
  · rw [List.length_append, hflen, List.length_drop]; omega
  · intro j hj
    obtain ⟨h', e⟩ := hoct j 0 hj (by omega)
    exact e.trans (hrel j hj h').oct0
  · intro j hj
    obtain ⟨h', e⟩ := hoct j 1 hj (by omega)
    exact e.trans (hrel j hj h').oct1
  · intro j r hj h2 hr
    obtain ⟨h', e⟩ := hoct j r hj hr
    rw [e, (hrel j hj h').rest r h2, octetAt_chunk _ _ _ _ hr]
  · intro a ha
    unfold octetAt
    rw [List.getElem?_append_right (by rw [hflen]; omega), hflen, List.getElem?_drop]
    congr 2
    omega

end Sx

end Midi2
