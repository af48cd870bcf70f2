import Verif.Lemmas.Octets
import Verif.Lemmas.Splice

/-! Messages of complete packets: size, payload iteration. -/

namespace Midi2

theorem chunksExact_eq_map {α : Type} {k : Nat} (hk : 0 < k) (l : List α) :
    chunksExact k l = (List.range (l.length / k)).map fun i => (l.drop (k * i)).take k := by
  apply List.ext_getElem?
  intro i
  rw [chunksExact_getElem? hk, List.getElem?_map]
  have hiff : k * (i + 1) ≤ l.length ↔ i < l.length / k := by
    rw [show k * (i + 1) = (i + 1) * k from Nat.mul_comm _ _, ← Nat.le_div_iff_mul_le hk]
    exact Iff.rfl
  by_cases h : i < l.length / k
  · rw [if_pos (hiff.mpr h), List.getElem?_range h]; rfl
  · rw [if_neg (fun c => h (hiff.mp c)), List.getElem?_eq_none (by simpa using h)]; rfl

theorem head0_drop_take {k : Nat} (hk : 0 < k) {b : List (BitVec 32)} {i : Nat} {w : BitVec 32}
    (h : b[i]? = some w) : head0 ((b.drop i).take k) = w := by
  rw [head0_take hk]
  unfold head0
  rw [List.headD_eq_head?_getD, List.head?_drop, h]; rfl

namespace Sx

theorem stride_pos (k : Sx) : 0 < k.stride := by cases k <;> decide
theorem cap_pos (k : Sx) : 0 < k.cap := by cases k <;> decide
theorem cap_off (k : Sx) : k.cap + k.off = 4 * k.stride := by cases k <;> rfl
theorem two_le_off (k : Sx) : 2 ≤ k.off := by cases k <;> decide
theorem off_lt (k : Sx) : k.off < 4 := by cases k <;> decide

/-- Payload byte stored at an octet address (0 outside the buffer). -/
def byteD (k : Sx) (b : Buf .ump) (a : Nat) : k.Byte := k.ofOctet ((octetAt b a).getD 0)

/-- The buffer starts with `p` whole packets, of which exactly the last one ends a message,
with the given numbers of payload bytes. -/
structure Frame (k : Sx) (b : Buf .ump) (p : Nat) (sz : Nat → Nat) : Prop where
  pos : 0 < p
  len : k.stride * p ≤ b.length
  head : ∀ j, j < p → ∃ w, b[k.stride * j]? = some w ∧ isLast w = decide (j + 1 = p) ∧
    k.packetSize w = .ok (sz j)
  le_cap : ∀ j, j < p → sz j ≤ k.cap

/-- Declared bytes of packet `j`. -/
def packetBytes (k : Sx) (b : Buf .ump) (sz : Nat → Nat) (j : Nat) : List k.Byte :=
  (List.range (sz j)).map fun i => k.byteD b (4 * (k.stride * j) + k.off + i)

/-- Declared bytes from packet `j` on. -/
def restFrom (k : Sx) (b : Buf .ump) (p : Nat) (sz : Nat → Nat) (j : Nat) : List k.Byte :=
  (List.range' j (p - j)).flatMap (k.packetBytes b sz)

theorem length_packetBytes (k : Sx) (b : Buf .ump) (sz : Nat → Nat) (j : Nat) :
    (k.packetBytes b sz j).length = sz j := by simp [packetBytes]

theorem restFrom_lt (k : Sx) (b : Buf .ump) {p : Nat} (sz : Nat → Nat) {j : Nat} (h : j < p) :
    k.restFrom b p sz j = k.packetBytes b sz j ++ k.restFrom b p sz (j + 1) := by
  unfold restFrom
  rw [show p - j = (p - (j + 1)) + 1 by omega, List.range'_succ, List.flatMap_cons]

theorem restFrom_ge (k : Sx) (b : Buf .ump) {p : Nat} (sz : Nat → Nat) {j : Nat} (h : p ≤ j) :
    k.restFrom b p sz j = [] := by
  unfold restFrom
  rw [show p - j = 0 by omega]; rfl

section
variable {k : Sx} {b : Buf .ump} {p : Nat} {sz : Nat → Nat}

theorem Frame.le_mul (F : Frame k b p sz) {j : Nat} (h : j < p) :
    k.stride * j + k.stride ≤ b.length := by
  have : k.stride * (j + 1) ≤ k.stride * p := Nat.mul_le_mul_left _ h
  rw [Nat.mul_succ] at this
  exact Nat.le_trans this F.len

theorem Frame.size_eq (F : Frame k b p sz) : k.size b = .ok (k.stride * p) := by
  unfold Sx.size
  have hl : p ≤ b.length / k.stride := by
    rw [Nat.le_div_iff_mul_le k.stride_pos, Nat.mul_comm]; exact F.len
  have : (chunksExact k.stride b).findIdx? (fun p => isLast (head0 p)) = some (p - 1) := by
    rw [chunksExact_eq_map k.stride_pos, List.findIdx?_eq_some_iff_getElem]
    have hp := F.pos
    refine ⟨by simp; omega, ?_, ?_⟩
    · obtain ⟨w, e1, e2, _⟩ := F.head (p - 1) (by omega)
      simp only [List.getElem_map, List.getElem_range]
      rw [head0_drop_take k.stride_pos e1, e2]
      simp; omega
    · intro j hj
      obtain ⟨w, e1, e2, _⟩ := F.head j (by omega)
      simp only [List.getElem_map, List.getElem_range]
      rw [head0_drop_take k.stride_pos e1, e2]
      simp; omega
  rw [this]
  have hp := F.pos
  have : k.stride * p = k.stride * (p - 1) + k.stride := by
    rw [← Nat.mul_succ]; congr 1; omega
  rw [this, Nat.mul_comm]

theorem Frame.data_eq (F : Frame k b p sz) : k.data b = .ok (b.take (k.stride * p)) := by
  unfold Sx.data
  rw [F.size_eq]
  simp only [Res.ok_bind]
  exact if_pos F.len

theorem sumSizes_map (k : Sx) (sz : Nat → Nat) (f : Nat → Buf .ump) :
    ∀ js : List Nat, (∀ j ∈ js, k.packetSize (head0 (f j)) = .ok (sz j)) →
      k.sumSizes (js.map f) = .ok ((js.map sz).sum)
  | [], _ => rfl
  | j :: js, h => by
    simp only [List.map_cons, sumSizes]
    rw [h j (by simp), sumSizes_map k sz f js (fun j hj => h j (by simp [hj]))]
    rfl

theorem length_restFrom (k : Sx) (b : Buf .ump) (p : Nat) (sz : Nat → Nat) (j : Nat) :
    (k.restFrom b p sz j).length = ((List.range' j (p - j)).map sz).sum := by
  unfold restFrom
  rw [List.length_flatMap]
  congr 1
  apply List.map_congr_left
  intro i _
  exact length_packetBytes ..

theorem Frame.payload_eq (F : Frame k b p sz) :
    k.payload b = .ok ⟨0, 0, (k.restFrom b p sz 0).length⟩ := by
  unfold Sx.payload
  rw [F.data_eq]
  simp only [Res.ok_bind]
  have hl : (b.take (k.stride * p)).length / k.stride = p := by
    rw [List.length_take, Nat.min_eq_left F.len, Nat.mul_div_cancel_left _ k.stride_pos]
  rw [chunksExact_eq_map k.stride_pos, hl, sumSizes_map k sz]
  · rw [length_restFrom, Nat.sub_zero, List.range_eq_range']; rfl
  · intro j hj
    have hj : j < p := by simpa using hj
    obtain ⟨w, e1, _, e3⟩ := F.head j hj
    have : (b.take (k.stride * p))[k.stride * j]? = some w := by
      rw [List.getElem?_take_of_lt, e1]
      exact Nat.mul_lt_mul_of_pos_left hj k.stride_pos
    rw [head0_drop_take k.stride_pos this, e3]

theorem Frame.payloadSize_eq (F : Frame k b p sz) :
    k.payloadSize b = .ok (k.restFrom b p sz 0).length := by
  unfold Sx.payloadSize
  rw [F.payload_eq]; rfl

theorem Frame.curSize_eq (F : Frame k b p sz) {j : Nat} (h : j < p) :
    k.curSize b j = .ok (sz j) := by
  unfold Sx.curSize
  obtain ⟨w, e1, _, e3⟩ := F.head j h
  rw [Nat.mul_comm, if_pos (F.le_mul h)]
  unfold at'
  rw [e1]; exact e3

theorem Frame.value_eq (F : Frame k b p sz) {it : It} (h : it.packet < p)
    (hi : it.idx < sz it.packet) :
    k.value b it = .ok (k.byteD b (4 * (k.stride * it.packet) + k.off + it.idx)) := by
  unfold Sx.value byteD
  have h1 := F.le_mul h
  have h2 := F.le_cap _ h
  have h3 := k.cap_off
  rw [Nat.mul_comm it.packet, at'_lt (by omega)]
  simp only [Res.ok_bind, Res.pure_eq]
  rw [octetAt_lt (by omega), get_eq]
  have e1 : (4 * (k.stride * it.packet) + k.off + it.idx) / 4 =
      k.stride * it.packet + (it.idx + k.off) / 4 := by omega
  have e2 : (4 * (k.stride * it.packet) + k.off + it.idx) % 4 = (it.idx + k.off) % 4 := by omega
  simp only [e1, e2, Option.getD_some]

/-- What the iterator has still to yield. -/
def remaining (k : Sx) (b : Buf .ump) (p : Nat) (sz : Nat → Nat) (it : It) : List k.Byte :=
  (k.restFrom b p sz it.packet).drop it.idx

/-- Invariant of the payload iterator. -/
structure ItOk (k : Sx) (b : Buf .ump) (p : Nat) (sz : Nat → Nat) (it : It) : Prop where
  cache : it.cache = (k.remaining b p sz it).length
  packet : it.packet ≤ p
  idx : it.idx = 0 ∨ it.packet < p ∧ it.idx < sz it.packet

theorem Frame.start (F : Frame k b p sz) : ItOk k b p sz ⟨0, 0, (k.restFrom b p sz 0).length⟩ :=
  ⟨by simp [remaining], by simp, Or.inl rfl⟩

theorem remaining_lt {it : It} (h : it.packet < p) (hi : it.idx < sz it.packet) :
    k.remaining b p sz it = k.byteD b (4 * (k.stride * it.packet) + k.off + it.idx) ::
      k.remaining b p sz { it with idx := it.idx + 1 } := by
  unfold remaining
  simp only
  rw [restFrom_lt k b sz h]
  rw [List.drop_append_of_le_length (by rw [length_packetBytes]; omega),
    List.drop_append_of_le_length (by rw [length_packetBytes]; omega)]
  rw [← List.cons_append]
  congr 1
  have hlt : it.idx < (k.packetBytes b sz it.packet).length := by rw [length_packetBytes]; exact hi
  rw [List.drop_eq_getElem_cons hlt]
  congr 1
  simp [packetBytes]

theorem remaining_roll {it : It} (h : it.packet < p) (hi : it.idx = sz it.packet) :
    k.remaining b p sz it = k.remaining b p sz { it with packet := it.packet + 1, idx := 0 } := by
  unfold remaining
  simp only
  rw [restFrom_lt k b sz h, List.drop_append, List.drop_of_length_le (by rw [length_packetBytes]; omega),
    length_packetBytes, hi]
  simp

theorem ItOk.packet_lt {it : It} (I : ItOk k b p sz it) (h : it.cache ≠ 0) : it.packet < p := by
  rcases Nat.lt_or_ge it.packet p with h' | h'
  · exact h'
  · have := I.cache
    unfold remaining at this
    rw [restFrom_ge k b sz h'] at this
    simp at this; omega

theorem Frame.skip (F : Frame k b p sz) : ∀ (fuel : Nat) (it : It), ItOk k b p sz it →
    p - it.packet < fuel →
    ∃ it', k.skipEmpty b fuel it = .ok it' ∧ ItOk k b p sz it' ∧
      k.remaining b p sz it' = k.remaining b p sz it ∧
      (it.cache ≠ 0 → it'.packet < p ∧ it'.idx < sz it'.packet) := by
  intro fuel
  induction fuel with
  | zero => intro it _ h; omega
  | succ fuel ih =>
    intro it I hf
    unfold Sx.skipEmpty
    by_cases hc : it.cache = 0
    · rw [if_pos hc]
      exact ⟨it, rfl, I, rfl, fun h => absurd hc h⟩
    · rw [if_neg hc, F.curSize_eq (I.packet_lt hc)]
      simp only [Res.ok_bind]
      have hp := I.packet_lt hc
      by_cases hz : sz it.packet = 0
      · rw [if_pos hz]
        have hi : it.idx = sz it.packet := by
          rcases I.idx with h | h <;> omega
        have er := remaining_roll (k := k) (b := b) (sz := sz) hp hi
        obtain ⟨it', e1, e2, e3, e4⟩ := ih { it with idx := 0, packet := it.packet + 1 }
          ⟨by rw [← er]; exact I.cache, hp, Or.inl rfl⟩ (by simp only; omega)
        exact ⟨it', e1, e2, by rw [e3, er], e4⟩
      · rw [if_neg hz]
        refine ⟨it, rfl, I, rfl, fun _ => ⟨hp, ?_⟩⟩
        rcases I.idx with h | h <;> omega

theorem Frame.fuel_ok (F : Frame k b p sz) (j : Nat) : p - j < b.length + 1 := by
  have h1 := F.len
  have h2 : 1 * p ≤ k.stride * p := Nat.mul_le_mul_right _ k.stride_pos
  omega

theorem Frame.advance_eq (F : Frame k b p sz) {it : It} (I : ItOk k b p sz it)
    (hp : it.packet < p) (hi : it.idx < sz it.packet) :
    ∃ it', k.advance b it = .ok it' ∧ ItOk k b p sz it' ∧
      k.remaining b p sz it' = k.remaining b p sz { it with idx := it.idx + 1 } := by
  have hc : it.cache - 1 = (k.remaining b p sz { it with idx := it.idx + 1 }).length := by
    have := I.cache
    rw [remaining_lt hp hi, List.length_cons] at this
    omega
  -- the iterator after rolling over to the next packet if needed
  have roll : ∃ it1 : It, (if it.idx + 1 = sz it.packet then
      (⟨it.packet + 1, 0, it.cache - 1⟩ : It) else ⟨it.packet, it.idx + 1, it.cache - 1⟩) = it1 ∧
      ItOk k b p sz it1 ∧ k.remaining b p sz it1 = k.remaining b p sz { it with idx := it.idx + 1 } := by
    by_cases h : it.idx + 1 = sz it.packet
    · rw [if_pos h]
      have er := remaining_roll (k := k) (b := b) (sz := sz)
        (it := { it with idx := it.idx + 1 }) hp h
      refine ⟨_, rfl, ⟨?_, ?_, Or.inl rfl⟩, er.symm⟩
      · simp only; rw [hc, er]; rfl
      · exact hp
    · rw [if_neg h]
      exact ⟨_, rfl, ⟨hc, Nat.le_of_lt hp, Or.inr ⟨hp, by simp only; omega⟩⟩, rfl⟩
  obtain ⟨it1, e1, i1, r1⟩ := roll
  unfold Sx.advance
  simp only
  rw [F.curSize_eq hp]
  simp only [Res.ok_bind]
  cases k with
  | s7 =>
    simp only
    obtain ⟨it2, e2, i2, r2, _⟩ := F.skip (b.length + 1) it1 i1 (F.fuel_ok _)
    refine ⟨it2, ?_, i2, by rw [r2, r1]⟩
    rw [← e2, ← e1]
  | s8 =>
    refine ⟨it1, ?_, i1, r1⟩
    rw [← e1]
    simp only [Res.pure_eq]
    congr 1
    by_cases h : it.idx + 1 = sz it.packet
    · rw [if_pos h, if_pos (by omega)]
    · rw [if_neg h, if_neg (by omega)]

theorem Frame.next_nil (F : Frame k b p sz) {it : It} (I : ItOk k b p sz it)
    (h : k.remaining b p sz it = []) : k.next b it = .ok (none, it) := by
  unfold Sx.next
  rw [if_pos (by rw [I.cache, h]; rfl)]

theorem Frame.next_cons (F : Frame k b p sz) {it : It} (I : ItOk k b p sz it) {v : k.Byte}
    {vs : List k.Byte} (h : k.remaining b p sz it = v :: vs) :
    ∃ it', k.next b it = .ok (some v, it') ∧ ItOk k b p sz it' ∧ k.remaining b p sz it' = vs := by
  unfold Sx.next
  have hc : it.cache ≠ 0 := by rw [I.cache, h]; simp
  rw [if_neg hc]
  obtain ⟨it1, e1, i1, r1, h1⟩ := F.skip (b.length + 1) it I (F.fuel_ok _)
  rw [e1]
  simp only [Res.ok_bind]
  obtain ⟨hp, hi⟩ := h1 hc
  rw [F.value_eq hp hi]
  simp only [Res.ok_bind]
  obtain ⟨it2, e2, i2, r2⟩ := F.advance_eq i1 hp hi
  rw [e2]
  have hr := remaining_lt (k := k) (b := b) (sz := sz) hp hi
  rw [r1, h] at hr
  refine ⟨it2, ?_, i2, ?_⟩
  · simp only [Res.ok_bind, Res.pure_eq]
    rw [(List.cons.inj hr).1]
  · rw [r2, (List.cons.inj hr).2]

theorem Frame.collect_eq (F : Frame k b p sz) : ∀ (l : List k.Byte) (fuel : Nat) (it : It),
    ItOk k b p sz it → k.remaining b p sz it = l → l.length < fuel → k.collect b fuel it = .ok l := by
  intro l
  induction l with
  | nil =>
    intro fuel it I h hf
    cases fuel with
    | zero => simp at hf
    | succ fuel =>
      unfold Sx.collect
      rw [F.next_nil I h]; rfl
  | cons v vs ih =>
    intro fuel it I h hf
    cases fuel with
    | zero => simp at hf
    | succ fuel =>
      unfold Sx.collect
      obtain ⟨it', e, i', r⟩ := F.next_cons I h
      rw [e]
      simp only [Res.ok_bind]
      rw [ih fuel it' i' r (by simp at hf; omega)]
      rfl

/-- `payload()` yields the declared bytes of all packets. -/
theorem Frame.payloadList_eq (F : Frame k b p sz) :
    k.payloadList b = .ok (k.restFrom b p sz 0) := by
  unfold Sx.payloadList
  rw [F.payload_eq]
  simp only [Res.ok_bind]
  exact F.collect_eq _ _ _ F.start (by simp [remaining]) (by omega)

theorem Frame.nthLoop_eq (F : Frame k b p sz) (pk : Nat) (ys : List (Buf .ump)) :
    ∀ (m j n : Nat) (c : Nat) (it : It),
    p - j = m → j ≤ p → pk ≤ j → it.packet = pk → c = (k.restFrom b p sz j).length →
    it.cache = c →
    (n < (k.restFrom b p sz j).length →
      ∃ it', k.nthLoop (((List.range' j (p - j)).map fun i => (b.drop (k.stride * i)).take k.stride) ++ ys)
          (j - pk) n it = .ok (it', true) ∧ ItOk k b p sz it' ∧
        k.remaining b p sz it' = (k.restFrom b p sz j).drop n) ∧
    ((k.restFrom b p sz j).length ≤ n →
      k.nthLoop (((List.range' j (p - j)).map fun i => (b.drop (k.stride * i)).take k.stride) ++ ys)
          (j - pk) n it =
        k.nthLoop ys (p - pk) (n - (k.restFrom b p sz j).length) { it with cache := 0 }) := by
  intro m
  induction m with
  | zero =>
    intro j n c it hm hj _ _ hc hcache
    rw [restFrom_ge k b sz (by omega)] at hc ⊢
    constructor
    · intro h; simp at h
    · intro _
      rw [hm, show j = p by omega]
      simp only [List.length_nil] at hc
      rw [hc] at hcache
      cases it
      simp only at hcache
      subst hcache
      rfl
  | succ m ih =>
    intro j n c it hm hj hpk hit hc hcache
    have hjp : j < p := by omega
    have hrest := restFrom_lt k b sz hjp
    have hlen : (k.restFrom b p sz j).length = sz j + (k.restFrom b p sz (j + 1)).length := by
      rw [hrest, List.length_append, length_packetBytes]
    obtain ⟨w, e1, _, e3⟩ := F.head j hjp
    rw [show p - j = (p - (j + 1)) + 1 by omega, List.range'_succ, List.map_cons, List.cons_append]
    unfold Sx.nthLoop
    rw [head0_drop_take k.stride_pos e1, e3]
    simp only [Res.ok_bind]
    by_cases hn : n < sz j
    · rw [if_pos hn, usub_ok (by omega)]
      have hrem : k.remaining b p sz ⟨it.packet + (j - pk), n, it.cache - n⟩ =
          (k.restFrom b p sz j).drop n := by
        unfold remaining
        simp only
        rw [show it.packet + (j - pk) = j by omega]
      constructor
      · intro _
        refine ⟨_, rfl, ⟨?_, ?_, ?_⟩, hrem⟩
        · rw [hrem, List.length_drop]; simp only; omega
        · simp only; omega
        · right; simp only; rw [show it.packet + (j - pk) = j by omega]; exact ⟨hjp, hn⟩
      · intro h; omega
    · rw [if_neg hn, usub_ok (by omega)]
      simp only [Res.ok_bind]
      obtain ⟨h1, h2⟩ := ih (j + 1) (n - sz j) (c - sz j) { it with cache := it.cache - sz j }
        (by omega) (by omega) (by omega) hit (by omega) (by simp only; omega)
      rw [show j - pk + 1 = j + 1 - pk by omega]
      constructor
      · intro h
        obtain ⟨it', a1, a2, a3⟩ := h1 (by omega)
        refine ⟨it', a1, a2, ?_⟩
        have hz : (k.packetBytes b sz j).drop n = [] :=
          List.drop_of_length_le (by rw [length_packetBytes]; omega)
        rw [a3, hrest, List.drop_append, length_packetBytes, hz, List.nil_append]
      · intro h
        have h2 := h2 (by omega)
        rw [h2, hlen, show n - sz j - (k.restFrom b p sz (j + 1)).length =
          n - (sz j + (k.restFrom b p sz (j + 1)).length) by omega]
        cases ys <;> rfl

theorem Frame.chunks_from (F : Frame k b p sz) {j : Nat}
    (hj : j ≤ p) : chunksExact k.stride (b.drop (k.stride * j)) =
      ((List.range' j (p - j)).map fun i => (b.drop (k.stride * i)).take k.stride) ++
        chunksExact k.stride (b.drop (k.stride * p)) := by
  have h1 := F.len
  have h2 : k.stride * j ≤ k.stride * p := Nat.mul_le_mul_left _ (by omega)
  rw [chunksExact_eq_map k.stride_pos, chunksExact_eq_map k.stride_pos]
  have : (b.drop (k.stride * j)).length / k.stride = (p - j) + (b.drop (k.stride * p)).length / k.stride := by
    have e : (b.drop (k.stride * j)).length = k.stride * (p - j) + (b.drop (k.stride * p)).length := by
      rw [List.length_drop, List.length_drop, Nat.mul_sub]; omega
    rw [e, Nat.mul_add_div k.stride_pos]
  rw [this, List.range_eq_range', List.range_eq_range', List.range'_eq_map_range (s := j),
    ← List.range'_append_1, List.map_append, List.map_map]
  congr 1
  · rw [List.range_eq_range']
    apply List.map_congr_left
    intro i _
    simp [List.drop_drop, Nat.mul_add]
  · rw [Nat.zero_add, List.range'_eq_map_range, List.range'_eq_map_range, List.map_map, List.map_map]
    apply List.map_congr_left
    intro i _
    simp only [Function.comp, List.drop_drop, Nat.zero_add]
    rw [← Nat.mul_add, ← Nat.mul_add, show j + (p - j + i) = p + i by omega]

/-- `nth(n)` within the remaining bytes. -/
theorem Frame.nth_some (F : Frame k b p sz) {it : It}
    (I : ItOk k b p sz it) {n : Nat} (hn : n < (k.remaining b p sz it).length) :
    ∃ it', k.nth b n it = .ok (some ((k.remaining b p sz it)[n]), it') ∧ ItOk k b p sz it' ∧
      k.remaining b p sz it' = (k.remaining b p sz it).drop (n + 1) := by
  have hp : it.packet < p := I.packet_lt (by rw [I.cache]; omega)
  have hidx : it.idx ≤ sz it.packet := by rcases I.idx with h | h <;> omega
  have hle := F.le_mul hp
  have hchunks := F.chunks_from (Nat.le_of_lt hp)
  have hlenrem : (k.remaining b p sz it).length =
      sz it.packet - it.idx + (k.restFrom b p sz (it.packet + 1)).length := by
    unfold remaining
    rw [restFrom_lt k b sz hp, List.length_drop, List.length_append, length_packetBytes]
    omega
  -- the state reached by the jump, and the call of `next` there
  have jump : ∀ it1, ItOk k b p sz it1 →
      k.remaining b p sz it1 = (k.remaining b p sz it).drop n →
      ∃ it', k.next b it1 = .ok (some ((k.remaining b p sz it)[n]), it') ∧ ItOk k b p sz it' ∧
        k.remaining b p sz it' = (k.remaining b p sz it).drop (n + 1) := by
    intro it1 i1 r1
    rw [List.drop_eq_getElem_cons hn] at r1
    obtain ⟨it2, a1, a2, a3⟩ := F.next_cons i1 r1
    exact ⟨it2, a1, a2, a3⟩
  unfold Sx.nth
  rw [Nat.mul_comm it.packet, if_neg (by omega), hchunks,
    show p - it.packet = (p - (it.packet + 1)) + 1 by omega, List.range'_succ, List.map_cons,
    List.cons_append]
  simp only
  obtain ⟨w, e1, _, e3⟩ := F.head it.packet hp
  rw [head0_drop_take k.stride_pos e1, e3]
  simp only [Res.ok_bind]
  rw [usub_ok hidx]
  simp only [Res.ok_bind]
  have hcache := I.cache
  by_cases hlt : n < sz it.packet - it.idx
  · rw [if_pos hlt, usub_ok (by omega)]
    simp only [Res.ok_bind]
    have hrem : k.remaining b p sz { it with idx := it.idx + n, cache := it.cache - n } =
        (k.remaining b p sz it).drop n := by
      unfold remaining; simp [List.drop_drop]
    obtain ⟨it2, a1, a2, a3⟩ := jump { it with idx := it.idx + n, cache := it.cache - n }
      ⟨by rw [hrem, List.length_drop]; simp only; omega, I.packet,
        Or.inr ⟨hp, by simp only; omega⟩⟩ hrem
    rw [a1]
    exact ⟨it2, rfl, a2, a3⟩
  · rw [if_neg hlt, usub_ok (by omega)]
    simp only [Res.ok_bind]
    obtain ⟨h1, _⟩ := F.nthLoop_eq it.packet (chunksExact k.stride (b.drop (k.stride * p)))
      (p - (it.packet + 1)) (it.packet + 1)
      (n - (sz it.packet - it.idx)) (it.cache - (sz it.packet - it.idx))
      { it with cache := it.cache - (sz it.packet - it.idx) } rfl hp (by omega) rfl (by omega) rfl
    obtain ⟨it1, a1, i1, r1⟩ := h1 (by omega)
    rw [show it.packet + 1 - it.packet = 1 by omega] at a1
    rw [a1]
    simp only [Res.ok_bind]
    obtain ⟨it2, a2, i2, r2⟩ := jump it1 i1 (by
      rw [r1]
      unfold remaining
      have hz : (k.packetBytes b sz it.packet).drop (it.idx + n) = [] :=
        List.drop_of_length_le (by rw [length_packetBytes]; omega)
      rw [restFrom_lt k b sz hp, List.drop_drop, List.drop_append, length_packetBytes, hz,
        List.nil_append]
      congr 1; omega)
    rw [a2]
    exact ⟨it2, rfl, i2, r2⟩

/-- Whether a scan which ran past the message gets by the packets behind it. -/
def passes (k : Sx) : List (Buf .ump) → Nat → Bool
  | [], _ => true
  | c :: cs, n =>
    if (U32.nibble (head0 c) 3).toNat = k.bias then k.passes cs n
    else decide (n = 0 ∧ k.bias ≤ (U32.nibble (head0 c) 3).toNat)

theorem passes_loop (k : Sx) : ∀ (cs : List (Buf .ump)) (rel n : Nat) (it : It), it.cache = 0 →
    (k.passes cs n = true → ∃ it' f, k.nthLoop cs rel n it = .ok (it', f) ∧ it'.cache = 0) ∧
    (k.passes cs n = false → k.nthLoop cs rel n it = .panic) := by
  intro cs
  induction cs with
  | nil => intro rel n it hc; exact ⟨fun _ => ⟨it, false, rfl, hc⟩, fun h => by cases h⟩
  | cons c cs ih =>
    intro rel n it hc
    unfold passes Sx.nthLoop packetSize
    by_cases he : (U32.nibble (head0 c) 3).toNat = k.bias
    · rw [if_pos he, usub_ok (by omega)]
      simp only [Res.ok_bind]
      rw [if_neg (by omega), usub_ok (by omega)]
      simp only [Res.ok_bind]
      rw [he, Nat.sub_self, Nat.sub_zero, Nat.sub_zero]
      exact ih (rel + 1) n _ hc
    · rw [if_neg he]
      by_cases hle : k.bias ≤ (U32.nibble (head0 c) 3).toNat
      · rw [usub_ok hle]
        simp only [Res.ok_bind]
        by_cases hn : n = 0
        · rw [if_pos (by omega), usub_ok (by omega)]
          constructor
          · intro _; exact ⟨_, _, rfl, by simp only; omega⟩
          · intro h; simp [hn, hle] at h
        · constructor
          · intro h; simp [hn] at h
          · intro _
            by_cases hlt : n < (U32.nibble (head0 c) 3).toNat - k.bias
            · rw [if_pos hlt]
              unfold usub
              rw [if_neg (by omega)]
              rfl
            · rw [if_neg hlt]
              unfold usub
              rw [if_neg (by omega)]
              rfl
      · unfold usub
        rw [if_neg hle]
        constructor
        · intro h; simp [hle] at h
        · intro _; rfl

/-- `nth(n)` past the end. -/
theorem Frame.nth_past (F : Frame k b p sz) {it : It}
    (I : ItOk k b p sz it) {n : Nat} (hn : (k.remaining b p sz it).length ≤ n) :
    (k.passes (chunksExact k.stride (b.drop (k.stride * p))) (n - (k.remaining b p sz it).length) = true →
      ∃ it', k.nth b n it = .ok (none, it') ∧ it'.cache = 0 ∧ it'.packet = b.length / 2) ∧
    (k.passes (chunksExact k.stride (b.drop (k.stride * p))) (n - (k.remaining b p sz it).length) = false →
      k.nth b n it = .panic) := by
  unfold Sx.nth
  have hple := I.packet
  have hmul : k.stride * it.packet ≤ k.stride * p := Nat.mul_le_mul_left _ I.packet
  have hlen := F.len
  have hnext : ∀ it' : It, it'.cache = 0 → k.next b it' = .ok (none, it') := by
    intro it' h
    unfold Sx.next
    rw [if_pos h]
  rw [Nat.mul_comm it.packet, if_neg (by omega)]
  by_cases hp : it.packet < p
  · have hidx : it.idx ≤ sz it.packet := by rcases I.idx with h | h <;> omega
    have hchunks := F.chunks_from (Nat.le_of_lt hp)
    have hlenrem : (k.remaining b p sz it).length =
        sz it.packet - it.idx + (k.restFrom b p sz (it.packet + 1)).length := by
      unfold remaining
      rw [restFrom_lt k b sz hp, List.length_drop, List.length_append, length_packetBytes]
      omega
    rw [hchunks, show p - it.packet = (p - (it.packet + 1)) + 1 by omega, List.range'_succ,
      List.map_cons, List.cons_append]
    simp only
    obtain ⟨w, e1, _, e3⟩ := F.head it.packet hp
    rw [head0_drop_take k.stride_pos e1, e3]
    simp only [Res.ok_bind]
    rw [usub_ok hidx]
    simp only [Res.ok_bind]
    have hcache := I.cache
    rw [if_neg (by omega), usub_ok (by omega)]
    simp only [Res.ok_bind]
    obtain ⟨_, h2⟩ := F.nthLoop_eq it.packet (chunksExact k.stride (b.drop (k.stride * p)))
      (p - (it.packet + 1)) (it.packet + 1)
      (n - (sz it.packet - it.idx)) (it.cache - (sz it.packet - it.idx))
      { it with cache := it.cache - (sz it.packet - it.idx) } rfl hp (by omega) rfl (by omega) rfl
    have h2 := h2 (by omega)
    rw [show it.packet + 1 - it.packet = 1 by omega] at h2
    rw [h2, show n - (sz it.packet - it.idx) - (k.restFrom b p sz (it.packet + 1)).length =
      n - (k.remaining b p sz it).length by omega]
    obtain ⟨q1, q2⟩ := k.passes_loop (chunksExact k.stride (b.drop (k.stride * p))) (p - it.packet)
      (n - (k.remaining b p sz it).length) { it with cache := 0 } rfl
    constructor
    · intro h
      obtain ⟨it', f, a1, a2⟩ := q1 h
      rw [a1]
      simp only [Res.ok_bind]
      cases f
      · exact ⟨_, rfl, rfl, rfl⟩
      · simp only [hnext it' a2]
        exact ⟨_, rfl, rfl, rfl⟩
    · intro h
      rw [q2 h]
      rfl
  · have hpe : it.packet = p := by omega
    have hr : k.remaining b p sz it = [] := by
      unfold remaining
      rw [restFrom_ge k b sz (by omega), List.drop_nil]
    have hcache : it.cache = 0 := by rw [I.cache, hr]; rfl
    have hidx : it.idx = 0 := by rcases I.idx with h | h <;> omega
    rw [hr, hpe]
    simp only [List.length_nil, Nat.sub_zero]
    cases hcs : chunksExact k.stride (b.drop (k.stride * p)) with
    | nil => exact ⟨fun _ => ⟨_, rfl, rfl, rfl⟩, fun h => by cases h⟩
    | cons c cs =>
      have hl := k.passes_loop (c :: cs) 1 n it hcache
      simp only [hidx]
      unfold passes packetSize at *
      by_cases he : (U32.nibble (head0 c) 3).toNat = k.bias
      · rw [if_pos he, usub_ok (by omega)]
        simp only [Res.ok_bind]
        rw [usub_ok (by omega)]
        simp only [Res.ok_bind]
        rw [if_neg (by omega), usub_ok (by omega)]
        simp only [Res.ok_bind, hcache]
        rw [he, Nat.sub_self, Nat.sub_zero, Nat.sub_zero]
        obtain ⟨q1, q2⟩ := k.passes_loop cs 1 n ⟨it.packet, 0, 0⟩ rfl
        constructor
        · intro h
          obtain ⟨it', f, a1, a2⟩ := q1 h
          rw [show ({ packet := p, idx := 0, cache := 0 } : It) = ⟨it.packet, 0, 0⟩ by rw [hpe]] at *
          simp only [a1, Res.ok_bind]
          cases f
          · exact ⟨_, rfl, rfl, rfl⟩
          · simp only [hnext it' a2]
            exact ⟨_, rfl, rfl, rfl⟩
        · intro h
          simp only [hpe] at q2
          simp only [q2 h]
          rfl
      · rw [if_neg he]
        by_cases hle : k.bias ≤ (U32.nibble (head0 c) 3).toNat
        · rw [usub_ok hle]
          simp only [Res.ok_bind]
          rw [usub_ok (Nat.zero_le _)]
          simp only [Res.ok_bind, hcache]
          by_cases hn : n = 0
          · rw [if_pos (by omega), usub_ok (by omega)]
            constructor
            · intro _
              simp only [Res.ok_bind]
              rw [hnext _ (by simp only; omega)]
              exact ⟨_, rfl, rfl, rfl⟩
            · intro h; simp [hn, hle] at h
          · constructor
            · intro h; simp [hn] at h
            · intro _
              by_cases hlt : n < (U32.nibble (head0 c) 3).toNat - k.bias - 0
              · rw [if_pos hlt]
                unfold usub
                rw [if_neg (by omega)]
                rfl
              · rw [if_neg hlt]
                unfold usub
                rw [if_neg (by omega)]
                rfl
        · unfold usub
          rw [if_neg hle]
          constructor
          · intro h; simp [hle] at h
          · intro _; rfl

end

end Sx

end Midi2
