import Verif.Lemmas.SysexDebug
import Verif.Lemmas.SysexAny

/-! # Splicing messages with gaps the compactness check does not notice

The library then takes all packets but the last for full ones. -/

namespace Midi2

namespace Sx

section
variable {k : Sx} {g : BitVec 4} {b : Buf .ump} {l : List k.Byte}

/-- A message of `l.length` bytes, whatever its packets declare, with the bytes `l` where they
would be if all packets but the last were full. -/
structure Seated (k : Sx) (g : BitVec 4) (p : Nat) (sz : Nat → Nat) (b : Buf .ump) (l : List k.Byte) :
    Prop where
  valid : Valid k g p sz b
  count : valid.payload.length = l.length
  bytes : ∀ i, i < l.length → (octetAt b (k.addr i)).map k.ofOctet = l[i]?

theorem Valid.length_le {p : Nat} {sz : Nat → Nat} (V : Valid k g p sz b) :
    V.payload.length ≤ k.cap * p := by
  have hmap : V.payload = (k.addrs p sz 0).map (k.byteD b) := restFrom_addrs k b V.le_cap 0
  rw [hmap, List.length_map]
  have := length_addrs_le k V.le_cap p 0 (by omega) (by omega)
  simpa using this

namespace Seated

variable {p : Nat} {sz : Nat → Nat}

theorem hi (S : Seated k g p sz b l) : l.length ≤ k.cap * p := by
  rw [← S.count]; exact S.valid.length_le

theorem size (S : Seated k g p sz b l) : k.payloadSize b = .ok l.length := by
  rw [← S.count]; exact S.valid.frame.payloadSize_eq

theorem addr_lt (S : Seated k g p sz b l) {i : Nat} (h : i < l.length) : k.addr i < 4 * b.length := by
  have h1 := S.hi
  have h2 := S.valid.len
  have : k.addr i < 4 * (k.stride * p) := k.addr_lt_iff.mpr (by omega)
  omega

/-- Changed payload octets. -/
theorem same (S : Seated k g p sz b l) {b' : Buf .ump} (h : SameHeads k b b') {l' : List k.Byte}
    (hl : l'.length = l.length)
    (hb : ∀ i, i < l'.length → (octetAt b' (k.addr i)).map k.ofOctet = l'[i]?) :
    Seated k g p sz b' l' := by
  refine ⟨h.valid S.valid, ?_, hb⟩
  rw [hl, ← S.count]
  have e1 := (h.valid S.valid).frame.payloadSize_eq
  unfold Valid.payload
  rw [length_restFrom, length_restFrom]

theorem group_eq (S : Seated k g p sz b l) : ∃ w, b[0]? = some w ∧ U32.nibble w 1 = g := by
  obtain ⟨w, w1, -, w3, -⟩ := S.valid.word S.valid.pos
  exact ⟨w, w1, w3⟩

theorem moveTail_eq {dbg : Bool} (S : Seated k g p sz b l) (t : dbg = true → k.isCompact b = true)
    (tail to : Nat) : k.moveTail dbg b tail to =
      (if tail < to then do
        let m ← usub l.length (to - tail)
        (List.range' tail (m - tail)).reverse.foldlM
          (fun b i => copyOctet b (k.addr i) (k.addr (i + (to - tail)))) b
      else if to < tail then
        (List.range' tail (l.length - tail)).foldlM
          (fun b i => copyOctet b (k.addr i) (k.addr (i - (tail - to)))) b
      else .ok b) := by
  unfold moveTail
  have : Res.assert (!dbg || k.isCompact b) = .ok () := by
    cases dbg with
    | false => rfl
    | true => rw [t rfl]; rfl
  rw [this, S.size]
  rfl

theorem move_up {dbg : Bool} (S : Seated k g p sz b l) (t : dbg = true → k.isCompact b = true)
    {tail to : Nat} (h1 : tail < to) (h2 : to ≤ l.length) :
    ∃ b', k.moveTail dbg b tail to = .ok b' ∧ SameHeads k b b' ∧
      Seated k g p sz b' (l.take to ++ (l.drop tail).take (l.length - to)) := by
  obtain ⟨b', e1, e2, e3, e4⟩ := copyUp k tail (to - tail) (l.length - (to - tail) - tail) b
    (by omega) (fun i hi => S.addr_lt (by omega))
  have hs : SameHeads k b b' := by
    refine ⟨e2, fun x hx => e4 x (fun i _ _ => hx _), septets_copy fun x => ?_⟩
    by_cases hx : ∃ i, tail ≤ i ∧ i < tail + (l.length - (to - tail) - tail) ∧ x = k.addr (i + (to - tail))
    · obtain ⟨i, h1, h2, rfl⟩ := hx
      exact ⟨_, e3 i h1 h2⟩
    · exact ⟨x, e4 x fun i h1 h2 e => hx ⟨i, h1, h2, e⟩⟩
  refine ⟨b', ?_, hs, ?_⟩
  · rw [S.moveTail_eq t, if_pos h1, usub_ok (by omega)]
    exact e1
  · apply S.same hs
    · simp only [List.length_append, List.length_take, List.length_drop]; omega
    · intro i hi
      simp only [List.length_append, List.length_take, List.length_drop] at hi
      by_cases h : i < to
      · rw [e4 _ (by intro j hj _ e; have := k.addr_inj e; omega), S.bytes i (by omega),
          List.getElem?_append_left (by simp; omega), List.getElem?_take_of_lt h]
      · have := e3 (i - (to - tail)) (by omega) (by omega)
        rw [show i - (to - tail) + (to - tail) = i by omega] at this
        rw [this, S.bytes _ (by omega), List.getElem?_append_right (by simp; omega),
          List.length_take, Nat.min_eq_left h2, List.getElem?_take_of_lt (by omega),
          List.getElem?_drop]
        congr 1; omega

theorem move_down {dbg : Bool} (S : Seated k g p sz b l) (t : dbg = true → k.isCompact b = true)
    {tail to : Nat} (h1 : to < tail) (h2 : tail ≤ l.length) :
    ∃ b', k.moveTail dbg b tail to = .ok b' ∧ SameHeads k b b' ∧
      Seated k g p sz b' (l.take to ++ l.drop tail ++ l.drop (to + (l.length - tail))) := by
  obtain ⟨b', e1, e2, e3, e4⟩ := copyDown k (tail - to) (l.length - tail) tail b
    (by omega) (by omega) (fun i hi => S.addr_lt (by omega))
  have hs : SameHeads k b b' := by
    refine ⟨e2, fun x hx => e4 x (fun i _ _ => hx _), septets_copy fun x => ?_⟩
    by_cases hx : ∃ i, tail ≤ i ∧ i < tail + (l.length - tail) ∧ x = k.addr (i - (tail - to))
    · obtain ⟨i, h1, h2, rfl⟩ := hx
      exact ⟨_, e3 i h1 h2⟩
    · exact ⟨x, e4 x fun i h1 h2 e => hx ⟨i, h1, h2, e⟩⟩
  refine ⟨b', ?_, hs, ?_⟩
  · rw [S.moveTail_eq t, if_neg (by omega), if_pos h1]
    exact e1
  · apply S.same hs
    · simp only [List.length_append, List.length_take, List.length_drop]; omega
    · intro i hi
      simp only [List.length_append, List.length_take, List.length_drop] at hi
      by_cases h : i < to
      · rw [e4 _ (by intro j hj _ e; have := k.addr_inj e; omega), S.bytes i (by omega),
          List.append_assoc, List.getElem?_append_left (by simp; omega),
          List.getElem?_take_of_lt h]
      · by_cases h' : i < to + (l.length - tail)
        · have := e3 (i + (tail - to)) (by omega) (by omega)
          rw [show i + (tail - to) - (tail - to) = i by omega] at this
          rw [this, S.bytes _ (by omega), List.getElem?_append_left (by simp; omega),
            List.getElem?_append_right (by simp; omega), List.getElem?_drop, List.length_take,
            Nat.min_eq_left (by omega)]
          congr 1; omega
        · rw [e4 _ (by intro j hj _ e; have := k.addr_inj e; omega), S.bytes i (by omega),
            List.getElem?_append_right (by simp; omega), List.getElem?_drop]
          congr 1
          simp only [List.length_append, List.length_take, List.length_drop]
          omega

theorem move_same {dbg : Bool} (S : Seated k g p sz b l) (t : dbg = true → k.isCompact b = true)
    (i : Nat) : k.moveTail dbg b i i = .ok b := by
  rw [S.moveTail_eq t]
  simp

theorem write (S : Seated k g p sz b l) (v : k.Byte) {i : Nat} (h : i < l.length) :
    ∃ b', k.writeDatum b v i = .ok b' ∧ SameHeads k b b' ∧ Seated k g p sz b' (l.set i v) := by
  obtain ⟨b', e1, e2, e3, o, e4, e5, e6⟩ := k.modify_byte (S.addr_lt h) v
  have hs : SameHeads k b b' := by
    refine ⟨e2, fun x hx => e3 x (hx i), fun hb hk a o' ho => ?_⟩
    by_cases ha : a = k.addr i
    · subst ha
      rw [e4] at ho
      cases ho
      have := octetAt_lt (S.addr_lt h)
      exact e6 hk _ this (hb hk _ _ this)
    · rw [e3 a ha] at ho
      exact hb hk a o' ho
  refine ⟨b', ?_, hs, ?_⟩
  · unfold writeDatum
    have d1 : k.stride * (i / k.cap) + (i % k.cap + k.off) / 4 = k.addr i / 4 := by
      rw [addr_eq]; omega
    have d2 : (i % k.cap + k.off) % 4 = k.addr i % 4 := by rw [addr_eq]; omega
    rw [d1, d2]
    exact e1
  · apply S.same hs (by simp)
    intro j hj
    rw [List.length_set] at hj
    rw [List.getElem?_set]
    by_cases hji : i = j
    · subst hji
      rw [if_pos rfl, if_pos hj, e4]
      simp [e5]
    · rw [if_neg hji, e3 _ (by intro e; exact hji (k.addr_inj e).symm), S.bytes j hj]

/-- Bytes surviving a resize. -/
theorem keep (S : Seated k g p sz b l) {g' : BitVec 4} {p' : Nat} {b' : Buf .ump} {l' : List k.Byte}
    (P' : Packed k g' p' b' l')
    (h : ∀ i, i < l'.length → i < l.length → octetAt b' (k.addr i) = octetAt b (k.addr i)) :
    l'.take l.length = l.take l'.length := by
  apply List.ext_getElem?
  intro i
  rw [List.getElem?_take, List.getElem?_take]
  by_cases h1 : i < l.length
  · by_cases h2 : i < l'.length
    · rw [if_pos h1, if_pos h2, ← S.bytes i h1, ← P'.bytes i h2, h i h2 h1]
    · rw [if_pos h1, if_neg h2, List.getElem?_eq_none (by omega)]
  · rw [if_neg h1]
    split
    · rw [List.getElem?_eq_none (by omega)]
    · rfl

end Seated

theorem Packed.seated {p : Nat} (P : Packed k g p b l) : Seated k g p (k.fillSize p l.length) b l :=
  ⟨P.valid, by rw [P.payload_valid], P.bytes⟩

end

/-- Representation while splicing. -/
def Seats (k : Sx) (dbg : Bool) (I : Buf .ump → Prop) (g : BitVec 4) (N : Option Nat) (b : Buf .ump)
    (l : List k.Byte) : Prop :=
  (∃ p sz, Seated k g p sz b l) ∧ Whole k dbg I N b

theorem Loose.seats {k : Sx} {dbg : Bool} {I : Buf .ump → Prop} {g : BitVec 4} {N : Option Nat}
    {b : Buf .ump} {l : List k.Byte} (h : Loose k dbg I g N b l) : Seats k dbg I g N b l := by
  obtain ⟨⟨p, P⟩, W⟩ := h
  exact ⟨⟨_, _, P.seated⟩, W⟩

theorem lawsSeated (k : Sx) (dbg : Bool) {I : Buf .ump → Prop} (g : BitVec 4) (N : Option Nat)
    (hI : Inv k I N.isSome) : SxLawsAll (k.ops dbg (memOf N)) (Seats k dbg I g N) (Strict k dbg I g N) (k.limit N) where
  weaken h := ⟨⟨_, _, h.packed.seated⟩, h.whole⟩
  bound := by
    rintro b l ⟨⟨p, sz, P⟩, W⟩
    cases N with
    | none => intro c hc; cases hc
    | some n =>
      intro c hc
      cases hc
      have h1 := W.fixed n rfl
      have h2 := P.valid.len
      have h3 := P.hi
      have : p ≤ n / k.stride := by
        rw [Nat.le_div_iff_mul_le k.stride_pos, Nat.mul_comm]; omega
      have : k.cap * p ≤ k.cap * (n / k.stride) := Nat.mul_le_mul_left _ this
      rw [Nat.mul_comm] at this
      rw [Nat.mul_comm] at h3
      have := Nat.mul_comm k.cap (n / k.stride)
      show l.length ≤ n / k.stride * k.cap
      omega
  size := by
    rintro b l ⟨⟨p, sz, P⟩, W⟩
    exact P.size
  write := by
    rintro b l v i ⟨⟨p, sz, P⟩, W⟩ hi
    obtain ⟨b', e1, e2, e3⟩ := P.write v hi
    exact ⟨b', e1, ⟨p, sz, e3⟩, e2.whole hI W⟩
  same := by
    rintro b l i ⟨⟨p, sz, P⟩, W⟩
    exact ⟨b, P.move_same (fun e => (W.steady e).isCompact) i, ⟨p, sz, P⟩, W⟩
  up := by
    rintro b l tail to ⟨⟨p, sz, P⟩, W⟩ h1 h2
    obtain ⟨b', e1, e2, e3⟩ := P.move_up (fun e => (W.steady e).isCompact) h1 h2
    exact ⟨b', e1, ⟨p, sz, e3⟩, e2.whole hI W⟩
  down := by
    rintro b l tail to ⟨⟨p, sz, P⟩, W⟩ h1 h2
    obtain ⟨b', e1, e2, e3⟩ := P.move_down (fun e => (W.steady e).isCompact) h1 h2
    exact ⟨b', e1, ⟨p, sz, e3⟩, e2.whole hI W⟩
  resize := by
    rintro b l n ⟨⟨p, sz, P⟩, W⟩ hf
    obtain ⟨w, hw, hg⟩ := P.group_eq
    have hb : k.stride ≤ b.length := by
      have := P.valid.frame.le_mul P.valid.pos
      omega
    have hbpos : 0 < b.length := by have := k.stride_pos; omega
    cases N with
    | none =>
      have hs1 := length_vecResize b (k.stride * k.count n)
      have hpos : 0 < k.stride * k.count n := Nat.mul_pos k.stride_pos (k.count_pos n)
      have hw1 : (vecResize b (k.stride * k.count n))[0]? = some w := by
        unfold vecResize
        rw [List.getElem?_append_left (by simp; omega), List.getElem?_take_of_lt hpos, hw]
      obtain ⟨b', e1, r⟩ := k.tryResize_fine (m := .vec) (b := b) (n := n) rfl
        (Nat.le_of_eq hs1.symm) ⟨w, hw1, hg⟩
      obtain ⟨l', f1, f2, f3, f4⟩ := r.packed (Nat.le_of_eq hs1.symm)
      subst f1
      refine ⟨b', l', e1, ⟨f2, ⟨?_, ?_, ?_⟩, f4, ?_⟩, rfl, ?_⟩
      · intro _; exact (r.tidy (tidyFrom_end (by omega))).steady _
      · exact hI.resized r (hI.vec rfl _ hbpos hpos W.inv)
      · intro _ h; cases h
      · intro _; rw [r.len, hs1]
      · apply P.keep f2
        intro i h1 h2
        rw [f3 i h1, octetAt_vecResize_lt _ _ _ (P.addr_lt h2)]
        exact k.addr_lt_iff.mpr (by have := k.le_count l'.length; omega)
    | some m =>
      have hm := W.fixed m rfl
      have hle : k.stride * k.count n ≤ b.length := by
        rw [hm] at hb ⊢
        exact (k.limit_iff hb).mp (hf _ rfl)
      obtain ⟨b', e1, r⟩ := k.tryResize_fine (m := .fixed) (b := b) (n := n) (b1 := b)
        (by simp [Mem.resize, hle]) hle ⟨w, hw, hg⟩
      obtain ⟨l', f1, f2, f3, f4⟩ := r.packed hle
      subst f1
      refine ⟨b', l', e1, ⟨f2, ⟨?_, ?_, ?_⟩, f4, ?_⟩, rfl, ?_⟩
      · intro e; exact r.tidy (Tidy.from (W.steady e) _)
      · exact hI.resized r W.inv
      · intro x h; rw [r.len]; exact W.fixed x h
      · intro h; cases h
      · exact P.keep f2 fun i h1 _ => f3 i h1
  full := by
    rintro b l n c ⟨⟨p, sz, P⟩, W⟩ hlim hc
    obtain ⟨w, hw, hg⟩ := P.group_eq
    have hb : k.stride ≤ b.length := by
      have := P.valid.frame.le_mul P.valid.pos
      omega
    cases N with
    | none => cases hlim
    | some m =>
      have hm := W.fixed m rfl
      subst hm
      have hlim : b.length / k.stride * k.cap = c := Option.some.inj hlim
      subst hlim
      have hlt : b.length < k.stride * k.count n := by
        have := k.limit_iff (n := n) hb
        omega
      have hpos : 0 < b.length / k.stride := Nat.div_pos hb k.stride_pos
      have hcm := k.count_mul (b.length / k.stride) hpos
      obtain ⟨b', e1, r⟩ := k.tryResize_full hlt hb ⟨w, hw, hg⟩
      obtain ⟨l', f1, f2, f3, f4⟩ := Resized.packed (k := k) (g := g)
        (n := b.length / k.stride * k.cap) (b := b) (b' := b') (by rw [hcm]; exact r)
        (by rw [hcm]; exact Nat.mul_div_le _ _)
      refine ⟨b', l', e1, ⟨by rw [f1]; exact f2, ⟨?_, ?_, ?_⟩, by rw [f1]; exact f4, ?_⟩, f1, ?_⟩
      · intro _; exact r.tidy (tidyFrom_whole b)
      · exact hI.resized r W.inv
      · intro x h; rw [r.len]; exact W.fixed x h
      · intro h; cases h
      · rw [P.keep f2 fun i h1 _ => f3 i (by omega)]
        apply List.take_of_length_le
        rw [f1]
        have h2 := P.valid.len
        have h3 := P.hi
        have : p ≤ b.length / k.stride := by
          rw [Nat.le_div_iff_mul_le k.stride_pos, Nat.mul_comm]; omega
        have : k.cap * p ≤ k.cap * (b.length / k.stride) := Nat.mul_le_mul_left _ this
        have := Nat.mul_comm k.cap (b.length / k.stride)
        omega

/-! ### Where the splice starts -/

theorem packetBytes_addr (k : Sx) (b : Buf .ump) (j s : Nat) (hs : s ≤ k.cap) :
    k.layout.packetBytes b j s =
      (List.range s).map fun i => (k.byteD b (k.addr (k.cap * j + i))).toNat := by
  unfold SysexLayout.packetBytes
  apply List.map_congr_left
  intro i hi
  have hi : i < s := by simpa using hi
  rw [words_eq, first_eq, values_eq, octetVal_eq, Nat.mul_assoc, addr_mul_add _ _ _ (by omega)]
  unfold byteD ofOctet
  rw [BitVec.toNat_setWidth]
  cases octetAt b (4 * (k.stride * j) + k.off + i) <;> rfl

theorem payload_fill_from (k : Sx) (b : Buf .ump) (n : Nat) : ∀ j,
    (((k.layout.fill n).zipIdx j).map fun (s, j) => k.layout.packetBytes b j s).flatten =
      (List.range n).map fun i => (k.byteD b (k.addr (k.cap * j + i))).toNat := by
  induction n using Nat.strongRecOn with
  | _ n ih =>
    intro j
    have hcap := k.cap_pos
    unfold SysexLayout.fill
    rw [capacity_eq]
    by_cases hn : n ≤ k.cap
    · rw [if_pos (.inl hn)]
      simp only [List.zipIdx_cons, List.zipIdx_nil, List.map_cons, List.map_nil, List.flatten_cons,
        List.flatten_nil, List.append_nil]
      exact packetBytes_addr k b j n hn
    · rw [if_neg (by omega)]
      simp only [List.zipIdx_cons, List.map_cons, List.flatten_cons]
      rw [ih (n - k.cap) (by omega) (j + 1), packetBytes_addr k b j k.cap (Nat.le_refl _)]
      have : List.range n = List.range k.cap ++ (List.range (n - k.cap)).map (k.cap + ·) := by
        rw [← List.range_add]; congr 1; omega
      rw [this, List.map_append, List.map_map]
      congr 1
      apply List.map_congr_left
      intro i _
      simp only [Function.comp, Nat.mul_succ, Nat.add_assoc]

/-- The bytes at the beginning of the packets. -/
theorem payload_fill (k : Sx) (b : Buf .ump) (n : Nat) : k.layout.payload b (k.layout.fill n) =
    ((List.range n).map fun i => k.byteD b (k.addr i)).map BitVec.toNat := by
  unfold SysexLayout.payload
  rw [payload_fill_from k b n 0, List.map_map]
  apply List.map_congr_left
  intro i _
  simp only [Function.comp, Nat.mul_zero, Nat.zero_add]

theorem isCompact_tidyRun {k : Sx} {b : Buf .ump} : k.isCompact b = true ↔ k.layout.TidyRun 0 b := by
  rw [isCompact_iff, runTidyFrom_iff]

/-- The message of a splice is one of these bytes in this place, whatever its packets declare. -/
theorem seats_start {k : Sx} {dbg : Bool} {I : Buf .ump → Prop} {N : Option Nat} (hI : Inv k I N.isSome)
    {b : Buf .ump} {g : BitVec 4} {sizes : List Nat} (M : k.layout.IsMessage b g.toNat sizes)
    (hb : dbg = true → k.layout.Behind N.isSome sizes.sum b) (hi : I b)
    (hN : ∀ n, N = some n → b.length = n) :
    ∃ (b0 : Buf .ump) (l0 : List k.Byte), k.layout.Assumed b sizes (l0.map BitVec.toNat) ∧
      l0.length = sizes.sum ∧ k.compact b = .ok b0 ∧ Seats k dbg I g N b0 l0 := by
  obtain ⟨g', hg, V⟩ := isMessage_valid M
  have hg : g' = g := BitVec.eq_of_toNat_eq hg
  subst hg
  by_cases hc : k.isCompact b = true
  · refine ⟨b, (List.range sizes.sum).map fun i => k.byteD b (k.addr i), ⟨fun h => ?_, fun _ => ?_⟩,
      by simp, by unfold compact; rw [if_pos hc], ⟨_, _, V, ?_, ?_⟩, ?_, hi, hN⟩
    · exact absurd (isCompact_tidyRun.mp hc) h
    · exact (payload_fill k b sizes.sum).symm
    · rw [payload_length V]; simp
    · intro i hi
      rw [List.length_map, List.length_range] at hi
      rw [List.getElem?_map, List.getElem?_range hi, Option.map_some]
      apply byteD_of_octet
      have h1 := V.length_le
      rw [payload_length V] at h1
      have h2 := V.len
      have : k.addr i < 4 * (k.stride * sizes.length) := k.addr_lt_iff.mpr (by omega)
      omega
    · intro hd
      cases N with
      | none => exact hc
      | some n =>
        have h1 : TidyFrom k (k.stride * k.count sizes.sum) b :=
          (behind_iff (N := some n)).mpr (hb hd)
        intro i o0 o1 hl h0 h1' ht hst
        by_cases hq : k.stride * k.count sizes.sum ≤ 4 * i
        · exact h1 i o0 o1 hq hl h0 h1' ht hst
        · refine isCompact_iff.mp hc i o1 (by omega) hl (fun i' hi' => ?_) h1' hst
          have hcp : k.count sizes.sum ≤ sizes.length := by
            refine (k.count_le_iff _ _ V.pos).mpr ?_
            have := V.length_le
            rwa [payload_length V] at this
          have hmul := Nat.mul_le_mul_left k.stride hcp
          have e4 := k.four_stride i'
          refine ⟨k.typOctet g', ?_, typOctet_typ k g'⟩
          rw [e4]
          refine V.oct0 _ ?_
          refine Nat.lt_of_mul_lt_mul_left (a := 4 * k.stride) ?_
          rw [Nat.mul_assoc, ← e4, Nat.mul_assoc]
          omega
  · obtain ⟨b0, p0, e1, P, C, e2⟩ := V.compacted_of fun h => absurd h hc
    refine ⟨b0, V.payload, ⟨fun _ => payload_spec V, fun h => absurd (isCompact_tidyRun.mpr h) hc⟩,
      payload_length V, e1, ⟨_, _, P.seated⟩, fun hd => ?_, e2 I _ hI hi, fun n hn => by
        rw [C.len]; exact hN n hn⟩
    refine (C.steady P N).mpr ?_
    rw [payload_length V]
    exact behind_iff.mpr (hb hd)

end Sx

end Midi2
