import Verif.Lemmas.SysexHold
import Verif.Lemmas.SysexApi
import Verif.Spec.Text

/-! Text written to and read from packets of four words. -/

namespace Midi2

/-! ## Rewriting packets -/

theorem flatten_getElem? {α : Type} {k : Nat} (hk : 0 < k) (L : List (List α))
    (h : ∀ p ∈ L, p.length = k) (i : Nat) :
    L.flatten[i]? = (L[i / k]?).bind (·[i % k]?) := by
  induction L generalizing i with
  | nil => simp
  | cons p L ih =>
    have hp : p.length = k := h p (by simp)
    rw [List.flatten_cons]
    by_cases hi : i < k
    · rw [List.getElem?_append_left (by omega), Nat.div_eq_of_lt hi, Nat.mod_eq_of_lt hi]; rfl
    · rw [List.getElem?_append_right (by omega), hp, ih (fun q hq => h q (by simp [hq]))]
      have e1 : i % k = (i - k) % k := by
        conv => lhs; rw [show i = (i - k) + k by omega, Nat.add_mod_right]
      have e2 : i / k = (i - k) / k + 1 := by
        conv => lhs; rw [show i = (i - k) + k by omega, Nat.add_div_right _ hk]
      rw [e1, e2, List.getElem?_cons_succ]

theorem flatten_length {α : Type} {k : Nat} (L : List (List α))
    (h : ∀ p ∈ L, p.length = k) : L.flatten.length = k * L.length := by
  induction L with
  | nil => simp
  | cons p L ih =>
    rw [List.flatten_cons, List.length_append, h p (by simp), ih (fun q hq => h q (by simp [hq])),
      List.length_cons, Nat.mul_succ]; omega

/-- Rewriting every packet, with its number. -/
theorem onChunks_idx {α : Type} {k : Nat} (hk : 0 < k) (f : Nat → List α → List α)
    (hf : ∀ i p, p.length = k → (f i p).length = k) (F : List (List α) → List (List α))
    (b : List α)
    (hF : ∀ i, (F (chunksExact k b))[i]? = ((chunksExact k b)[i]?).map (f i)) (i : Nat) :
    (onChunksExact k b F)[i]? =
      if i / k < b.length / k then (f (i / k) ((b.drop (k * (i / k))).take k))[i % k]?
      else b[i]? := by
  have hlen : (F (chunksExact k b)).length = b.length / k := by
    have hc := chunksExact_length hk b
    rcases Nat.lt_trichotomy (F (chunksExact k b)).length (b.length / k) with h | h | h
    · have := hF (F (chunksExact k b)).length
      rw [List.getElem?_eq_none (Nat.le_refl _), List.getElem?_eq_getElem (by omega)] at this
      cases this
    · exact h
    · have := hF (b.length / k)
      rw [List.getElem?_eq_getElem h, List.getElem?_eq_none (by omega)] at this
      cases this
  have hall : ∀ p ∈ F (chunksExact k b), p.length = k := by
    intro p hp
    obtain ⟨j, hj, rfl⟩ := List.mem_iff_getElem.mp hp
    have := hF j
    rw [List.getElem?_eq_getElem hj, List.getElem?_eq_getElem (by
      rw [chunksExact_length hk]; omega), Option.map_some] at this
    rw [Option.some.inj this]
    exact hf _ _ (chunksExact_mem_length hk (List.getElem_mem _))
  have hd : k * (b.length / k) ≤ b.length := Nat.mul_div_le _ _
  unfold onChunksExact
  have hfl := flatten_length _ hall
  rw [hlen] at hfl
  have hiff : i / k < b.length / k ↔ i < k * (b.length / k) := by
    rw [Nat.div_lt_iff_lt_mul hk, Nat.mul_comm]
  by_cases h : i / k < b.length / k
  · rw [List.getElem?_append_left (by rw [hfl]; exact hiff.mp h), flatten_getElem? hk _ hall,
      if_pos h, hF, chunksExact_getElem? hk, if_pos]
    · rfl
    · have := Nat.mul_le_mul_left k (show i / k + 1 ≤ b.length / k by omega)
      omega
  · have h' : k * (b.length / k) ≤ i := by
      rcases Nat.lt_or_ge i (k * (b.length / k)) with c | c
      · exact absurd (hiff.mpr c) h
      · exact c
    rw [List.getElem?_append_right (by rw [hfl]; exact h'), hfl, if_neg h, List.getElem?_drop]
    congr 1; omega

theorem onChunks_map {α : Type} {k : Nat} (hk : 0 < k) (f : List α → List α)
    (hf : ∀ p, p.length = k → (f p).length = k) (b : List α) (i : Nat) :
    (onChunksExact k b (List.map f))[i]? =
      if i / k < b.length / k then (f ((b.drop (k * (i / k))).take k))[i % k]? else b[i]? :=
  onChunks_idx hk (fun _ => f) (fun _ => hf) (List.map f) b (fun i => by rw [List.getElem?_map]) i

theorem length_of_getElem? {α β : Type} {a : List α} {b : List β}
    (h : ∀ i : Nat, (a[i]?).isSome = (b[i]?).isSome) : a.length = b.length := by
  rcases Nat.lt_trichotomy a.length b.length with c | c | c
  · have := h a.length
    rw [List.getElem?_eq_none (Nat.le_refl _), List.getElem?_eq_getElem c] at this
    cases this
  · exact c
  · have := h b.length
    rw [List.getElem?_eq_getElem c, List.getElem?_eq_none (Nat.le_refl _)] at this
    cases this

/-- Rewriting the first word of every packet, with the number of the packet. -/
theorem onChunks_heads {k : Nat} (hk : 0 < k) (f : Nat → BitVec 32 → BitVec 32)
    (F : List (List (BitVec 32)) → List (List (BitVec 32))) (b : List (BitVec 32))
    (hF : ∀ i, (F (chunksExact k b))[i]? = ((chunksExact k b)[i]?).map (modifyHead0 (f i)))
    (i : Nat) :
    (onChunksExact k b F)[i]? =
      if i % k = 0 ∧ i / k < b.length / k then (b[i]?).map (f (i / k)) else b[i]? := by
  rw [onChunks_idx hk (fun i => modifyHead0 (f i)) (by
    intro i p hp; rw [modifyHead0_length]; exact hp) F b hF i]
  have hdm := Nat.div_add_mod i k
  by_cases h : i / k < b.length / k
  · rw [if_pos h]
    have hlt : k * (i / k) + k ≤ b.length := by
      have := Nat.mul_le_mul_left k (show i / k + 1 ≤ b.length / k by omega)
      have := Nat.mul_div_le b.length k
      rw [Nat.mul_succ] at *
      omega
    have hr := Nat.mod_lt i hk
    rw [Sx.modifyHead0_getElem?]
    by_cases h0 : i % k = 0
    · rw [if_pos h0, if_pos ⟨h0, h⟩, h0, List.getElem?_take_of_lt hk, List.getElem?_drop]
      rw [show k * (i / k) + 0 = i by omega]
    · rw [if_neg h0, if_neg (fun c => h0 c.1), List.getElem?_take_of_lt hr, List.getElem?_drop,
        hdm]
  · rw [if_neg h, if_neg (fun c => h c.2)]

/-! ## The iterator -/

theorem div_mod_step {c i : Nat} (hc : 0 < c) (h : i % c + 1 = c) :
    (i + 1) / c = i / c + 1 ∧ (i + 1) % c = 0 := by
  have h2 := Nat.div_add_mod i c
  have e : i + 1 = c * (i / c + 1) := by rw [Nat.mul_succ]; omega
  generalize i / c = q at *
  subst_eqs
  rw [e, Nat.mul_div_cancel_left _ hc, Nat.mul_mod_right]
  exact ⟨rfl, rfl⟩

theorem div_mod_stay {c i : Nat} (hr : i % c < c) (h : ¬ i % c + 1 = c) :
    (i + 1) / c = i / c ∧ (i + 1) % c = i % c + 1 := by
  have h2 := Nat.div_add_mod i c
  have e : i + 1 = c * (i / c) + (i % c + 1) := by omega
  generalize i / c = q at *
  generalize i % c = r at *
  rw [e, Nat.mul_add_div (by omega), Nat.mul_add_mod, Nat.div_eq_of_lt (by omega),
    Nat.mod_eq_of_lt (by omega), Nat.add_zero]
  exact ⟨rfl, rfl⟩

namespace TextSource

variable {t : TextSource} {N : Nat} {v : Nat → BitVec 8}

/-- Position number `i`. -/
def pos (t : TextSource) (i : Nat) : TextIt := ⟨i / t.cap, i % t.cap⟩

theorem advance_pos (hc : 0 < t.cap) (i : Nat) : t.advance (t.pos i) = t.pos (i + 1) := by
  unfold advance pos
  have h1 := Nat.mod_lt i hc
  by_cases h : i % t.cap + 1 = t.cap
  · rw [if_pos (by simpa using h), (div_mod_step hc h).1, (div_mod_step hc h).2]
  · rw [if_neg (by simpa using h), (div_mod_stay h1 h).1, (div_mod_stay h1 h).2]

/-- The source ends at position `N` and holds `v i` at the positions in front of it. -/
structure Holds (t : TextSource) (N : Nat) (v : Nat → BitVec 8) : Prop where
  cap : 0 < t.cap
  finished : ∀ i, i ≤ N → t.finished (t.pos i) = .ok (decide (i = N))
  value : ∀ i, i < N → t.value (t.pos i) = .ok (v i)

/-- Bytes other than zero from position `i` on. -/
def rest (N : Nat) (v : Nat → BitVec 8) (i : Nat) : List (BitVec 8) :=
  ((List.range' i (N - i)).map v).filter (· ≠ 0)

theorem rest_end : rest N v N = [] := by simp [rest]

theorem rest_step {i : Nat} (h : i < N) :
    rest N v i = if v i = 0 then rest N v (i + 1) else v i :: rest N v (i + 1) := by
  unfold rest
  rw [show N - i = (N - (i + 1)) + 1 by omega, List.range'_succ, List.map_cons, List.filter_cons]
  by_cases hv : v i = 0 <;> simp [hv]

theorem skip_eq (H : Holds t N v) : ∀ (fuel i : Nat), i ≤ N → N - i ≤ fuel →
    ∃ j, i ≤ j ∧ j ≤ N ∧ t.skip fuel (t.pos i) = .ok (t.pos j) ∧ rest N v i = rest N v j ∧
      (j < N → v j ≠ 0)
  | 0, i, h1, h2 => ⟨i, Nat.le_refl _, h1, rfl, rfl, by omega⟩
  | fuel + 1, i, h1, h2 => by
    rw [skip, H.finished i h1, Res.ok_bind]
    by_cases he : i = N
    · rw [if_pos (by simpa using he)]
      exact ⟨i, Nat.le_refl _, h1, rfl, rfl, by omega⟩
    · rw [if_neg (by simpa using he), H.value i (by omega), Res.ok_bind]
      by_cases hv : v i = 0
      · rw [if_pos (by simpa using hv), advance_pos H.cap]
        obtain ⟨j, a1, a2, a3, a4, a5⟩ := skip_eq H fuel (i + 1) (by omega) (by omega)
        refine ⟨j, by omega, a2, a3, ?_, a5⟩
        rw [rest_step (by omega), if_pos hv, a4]
      · rw [if_neg (by simpa using hv)]
        exact ⟨i, Nat.le_refl _, h1, rfl, rfl, fun _ => hv⟩

theorem next_eq (H : Holds t N v) {fuel i : Nat} (h1 : i ≤ N) (h2 : N - i ≤ fuel) :
    (rest N v i = [] ∧ ∃ it, t.next fuel (t.pos i) = .ok (none, it)) ∨
    ∃ j x, i < j ∧ j ≤ N ∧ rest N v i = x :: rest N v j ∧
      t.next fuel (t.pos i) = .ok (some x, t.pos j) := by
  obtain ⟨j, a1, a2, a3, a4, a5⟩ := skip_eq H fuel i h1 h2
  unfold next
  rw [a3, Res.ok_bind, H.finished j a2, Res.ok_bind]
  by_cases he : j = N
  · rw [if_pos (by simpa using he)]
    refine .inl ⟨?_, _, rfl⟩
    rw [a4, he, rest_end]
  · rw [if_neg (by simpa using he), H.value j (by omega), Res.ok_bind, advance_pos H.cap]
    refine .inr ⟨j + 1, v j, by omega, by omega, ?_, rfl⟩
    rw [a4, rest_step (by omega), if_neg (a5 (by omega))]

theorem collect_eq (H : Holds t N v) {fuel : Nat} (hf : N ≤ fuel) : ∀ (n i : Nat), i ≤ N →
    N - i < n → t.collect fuel n (t.pos i) = .ok (rest N v i)
  | 0, _, _, h => by omega
  | n + 1, i, h1, h2 => by
    rw [collect]
    rcases next_eq H h1 (show N - i ≤ fuel by omega) with ⟨e, it, h⟩ | ⟨j, x, a1, a2, a3, a4⟩
    · rw [h, Res.ok_bind, e]; rfl
    · rw [a4, Res.ok_bind, a3]
      show (t.collect fuel n (t.pos j) >>= _) = _
      rw [collect_eq H hf n j a2 (by omega)]; rfl

theorem collect_start (H : Holds t N v) {fuel : Nat} (hf : N < fuel) :
    t.collect fuel fuel ⟨0, 0⟩ = .ok (((List.range N).map v).filter (· ≠ 0)) := by
  have e : t.pos 0 = ⟨0, 0⟩ := by unfold pos; rw [Nat.zero_div, Nat.zero_mod]
  have := collect_eq H (show N ≤ fuel by omega) fuel 0 (by omega) (by omega)
  rw [e] at this
  rw [this, rest, List.range_eq_range', Nat.sub_zero]

end TextSource

/-! ## Addresses -/

/-- Octet address of text byte `i` if every packet of 16 octets has `first` octets of
header. -/
def slotAddr (first i : Nat) : Nat := 16 * (i / (16 - first)) + first + i % (16 - first)

theorem slotAddr_div {first : Nat} (hf : first < 16) (i : Nat) :
    slotAddr first i / 16 = i / (16 - first) := by
  unfold slotAddr
  have := Nat.mod_lt i (show 0 < 16 - first by omega)
  generalize i / (16 - first) = q at *
  omega

theorem slotAddr_mod {first : Nat} (hf : first < 16) (i : Nat) :
    slotAddr first i % 16 = first + i % (16 - first) := by
  unfold slotAddr
  have := Nat.mod_lt i (show 0 < 16 - first by omega)
  generalize i / (16 - first) = q at *
  omega

/-- The number of the text byte at an address. -/
def slotIndex (first a : Nat) : Nat := (16 - first) * (a / 16) + (a % 16 - first)

theorem slotIndex_addr {first : Nat} (hf : first < 16) (i : Nat) :
    slotIndex first (slotAddr first i) = i := by
  unfold slotIndex
  rw [slotAddr_div hf, slotAddr_mod hf]
  have := Nat.div_add_mod i (16 - first)
  omega

theorem slotAddr_index {first a : Nat} (hf : first < 16) (h : first ≤ a % 16) :
    slotAddr first (slotIndex first a) = a := by
  unfold slotAddr slotIndex
  have h1 : a % 16 - first < 16 - first := by have := Nat.mod_lt a (show 0 < 16 by omega); omega
  rw [Nat.mul_add_div (by omega), Nat.mul_add_mod, Nat.div_eq_of_lt h1, Nat.mod_eq_of_lt h1]
  omega

theorem slotAddr_lt {first m i : Nat} (hf : first < 16) (h : i < (16 - first) * m) :
    slotAddr first i < 16 * m := by
  have := Nat.div_lt_of_lt_mul h
  have h2 := slotAddr_div hf i
  omega

/-! ## Writing -/

/-- Both writing loops. -/
def wloop (first : Nat) : List (BitVec 8) → Nat → Nat → Buf .ump → Res (Buf .ump)
  | [], _, _, b => .ok b
  | v :: vs, packet, byte, b => do
    let b ← modifyAt b ((16 * packet + first + byte) / 4) fun w =>
      U32.setOctet w ((16 * packet + first + byte) % 4) v
    if byte + 1 = 16 - first then wloop first vs (packet + 1) 0 b
    else wloop first vs packet (byte + 1) b

theorem flex_writeLoop (vs : List (BitVec 8)) : ∀ (p j : Nat) (b : Buf .ump),
    FlexText.writeLoop vs p j b = wloop 4 vs p j b := by
  induction vs with
  | nil => intros; rfl
  | cons v vs ih =>
    intro p j b
    rw [FlexText.writeLoop, wloop]
    have e1 : (16 * p + 4 + j) / 4 = p * 4 + 1 + j / 4 := by omega
    have e2 : (16 * p + 4 + j) % 4 = j % 4 := by omega
    rw [e1, e2]
    congr 1; funext b
    rw [ih, ih]
    by_cases h : j = 11
    · rw [if_pos (by simpa using h), if_pos (by omega)]
    · rw [if_neg (by simpa using h), if_neg (by omega)]

theorem stream_writeLoop {off : Nat} (ho : off < 2) (vs : List (BitVec 8)) :
    ∀ (p j : Nat) (b : Buf .ump),
    StreamText.writeLoop off vs p j b = wloop (2 + off) vs p j b := by
  induction vs with
  | nil => intros; rfl
  | cons v vs ih =>
    intro p j b
    rw [StreamText.writeLoop, wloop]
    have e1 : (16 * p + (2 + off) + j) / 4 = p * 4 + (j + 2 + off) / 4 := by omega
    have e2 : (16 * p + (2 + off) + j) % 4 = (j + 2 + off) % 4 := by omega
    rw [e1, e2]
    congr 1; funext b
    rw [ih, ih]
    by_cases h : j = 13 - off
    · rw [if_pos (by simpa using h), if_pos (by omega)]
    · rw [if_neg (by simpa using h), if_neg (by omega)]

theorem wloop_eq {first : Nat} (hf : first < 16) {m : Nat} : ∀ (vs : List (BitVec 8)) (i : Nat)
    (b : Buf .ump), 4 * m ≤ b.length → i + vs.length ≤ (16 - first) * m →
    ∃ b', wloop first vs (i / (16 - first)) (i % (16 - first)) b = .ok b' ∧
      b'.length = b.length ∧
      ∀ a, octetAt b' a = if first ≤ a % 16 ∧ i ≤ slotIndex first a ∧
          slotIndex first a < i + vs.length then vs[slotIndex first a - i]? else octetAt b a
  | [], i, b, _, _ => by
    refine ⟨b, rfl, rfl, ?_⟩
    intro a
    rw [if_neg]
    rintro ⟨_, h1, h2⟩
    simp at h2; omega
  | v :: vs, i, b, hm, hi => by
    rw [List.length_cons] at hi
    have hlt := slotAddr_lt (m := m) hf (show i < (16 - first) * m by omega)
    obtain ⟨b1, e1, e2, e3⟩ := modify_octet (b := b) (a := slotAddr first i)
      (show slotAddr first i < 4 * b.length by omega) v
    have hr := Nat.mod_lt i (show 0 < 16 - first by omega)
    have hd := Nat.div_add_mod i (16 - first)
    obtain ⟨b2, f1, f2, f3⟩ := wloop_eq hf (m := m) vs (i + 1) b1 (by omega) (by omega)
    refine ⟨b2, ?_, by omega, ?_⟩
    · rw [wloop]
      have e1' : modifyAt b ((16 * (i / (16 - first)) + first + i % (16 - first)) / 4)
          (fun w => U32.setOctet w ((16 * (i / (16 - first)) + first + i % (16 - first)) % 4) v)
          = .ok b1 := e1
      rw [e1', Res.ok_bind]
      by_cases h : i % (16 - first) + 1 = 16 - first
      · rw [if_pos h]
        rw [(div_mod_step (by omega) h).1, (div_mod_step (by omega) h).2] at f1
        exact f1
      · rw [if_neg h]
        rw [(div_mod_stay hr h).1, (div_mod_stay hr h).2] at f1
        exact f1
    · intro a
      rw [f3, e3]
      by_cases h : first ≤ a % 16 ∧ i + 1 ≤ slotIndex first a ∧
          slotIndex first a < i + 1 + vs.length
      · rw [if_pos h, if_pos ⟨h.1, by omega, by rw [List.length_cons]; omega⟩]
        rw [show slotIndex first a - i = (slotIndex first a - (i + 1)) + 1 by omega,
          List.getElem?_cons_succ]
      · rw [if_neg h]
        by_cases ha : a = slotAddr first i
        · have hx : slotIndex first a = i := by rw [ha, slotIndex_addr hf]
          rw [if_pos ha, if_pos ⟨by rw [ha, slotAddr_mod hf]; omega, by omega, by simp; omega⟩, hx,
            Nat.sub_self]; rfl
        · rw [if_neg ha, if_neg]
          rintro ⟨h1, h2, h3⟩
          rw [List.length_cons] at h3
          have hne : slotIndex first a ≠ i := by
            intro c
            apply ha
            rw [← c, slotAddr_index hf h1]
          exact h ⟨h1, by omega, by omega⟩

/-! ## Strings -/

theorem utf8_eq (s : String) : utf8 s = (strBytes s).map BitVec.toNat := by
  unfold utf8 strBytes
  rw [List.map_map]
  rfl

theorem length_utf8 (s : String) : (utf8 s).length = (strBytes s).length := by
  rw [utf8_eq, List.length_map]

theorem fromUtf8_strBytes (s : String) : fromUtf8 (strBytes s) = .ok s := by
  have e : (⟨((strBytes s).map UInt8.ofBitVec).toArray⟩ : ByteArray) = s.toByteArray := by
    unfold strBytes
    rw [List.map_map]
    have : (UInt8.ofBitVec ∘ UInt8.toBitVec) = id := by funext x; rfl
    rw [this, List.map_id, Array.toArray_toList]
  unfold fromUtf8
  rw [e]
  unfold String.fromUTF8?
  rw [dif_pos s.isValidUTF8]
  rfl

theorem fromUtf8_ok {l : List (BitVec 8)} {s : String} (h : fromUtf8 l = .ok s) :
    strBytes s = l := by
  unfold fromUtf8 String.fromUTF8? at h
  split at h
  · next s' e =>
    cases h
    split at e
    · cases e
      unfold strBytes String.fromUTF8
      simp only [List.map_map]
      have : (UInt8.toBitVec ∘ UInt8.ofBitVec) = id := by funext x; rfl
      rw [this, List.map_id]
    · cases e
  · cases h

theorem fromUtf8_total (l : List (BitVec 8)) :
    (∃ s, fromUtf8 l = .ok s ∧ strBytes s = l) ∨
    (fromUtf8 l = .err .invalidData ∧ ∀ s, strBytes s ≠ l) := by
  cases h : fromUtf8 l with
  | ok s => exact .inl ⟨s, rfl, fromUtf8_ok h⟩
  | err e =>
    refine .inr ⟨?_, ?_⟩
    · unfold fromUtf8 at h
      split at h <;> cases h
      rfl
    · intro s hs
      rw [← hs, fromUtf8_strBytes] at h
      cases h
  | panic => unfold fromUtf8 at h; split at h <;> cases h

end Midi2
