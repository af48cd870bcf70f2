import Verif.Lemmas.TextFlexApi

/-! Stream text messages: what setting the text leaves in the buffer. -/

namespace Midi2

/-! ### Header bits -/

theorem streamStatusOf_eq (w : BitVec 32) :
    streamStatusOf w = (w.extractLsb' 16 10).setWidth 16 := by
  apply BitVec.eq_of_toNat_eq
  rw [streamStatus_field, BitVec.toNat_setWidth, toNat_ext, field]
  omega

theorem setStreamStatus_eq (s : BitVec 10) (w : BitVec 32) :
    setStreamStatus (s.setWidth 16) w = ins w 16 s := by
  unfold setStreamStatus ins
  have e : (s.setWidth 16).setWidth 32 = s.setWidth 32 := by
    apply BitVec.eq_of_toNat_eq
    have := s.isLt
    rw [BitVec.toNat_setWidth, BitVec.toNat_setWidth, BitVec.toNat_setWidth]
    omega
  rw [e]
  rfl

theorem status10 {s : BitVec 16} (h : s.toNat < 1024) : (s.setWidth 10).setWidth 16 = s := by
  apply BitVec.eq_of_toNat_eq
  rw [BitVec.toNat_setWidth, BitVec.toNat_setWidth]
  omega

namespace U32

theorem octet_setStatus_ne (s : BitVec 10) (w : BitVec 32) {r : Nat} (h : 2 ≤ r) (hr : r < 4) :
    octet (setStreamStatus (s.setWidth 16) w) r = octet w r := by
  rw [setStreamStatus_eq, octet_eq, ext_ins_disjoint _ _ _ _ (by omega), octet_eq]

theorem octet1_setStatus (s : BitVec 10) (w : BitVec 32) :
    octet (setStreamStatus (s.setWidth 16) w) 1 = s.extractLsb' 0 8 := by
  rw [setStreamStatus_eq, octet_eq]
  apply BitVec.eq_of_getLsbD_eq
  intro k hk
  rw [getLsbD_ext, getLsbD_ins, getLsbD_ext, if_pos (by omega)]
  have : decide (24 - 1 * 8 + k < 32) = true := by simp; omega
  rw [this, Bool.true_and]
  congr 2; omega

theorem nibble0_setStatus (s : BitVec 10) (w : BitVec 32) :
    nibble (setStreamStatus (s.setWidth 16) w) 0 = nibble w 0 := by
  rw [setStreamStatus_eq, nibble_eq, ext_ins_disjoint _ _ _ _ (by omega), nibble_eq]

theorem crumb2_setStatus (s : BitVec 10) (w : BitVec 32) :
    crumb (setStreamStatus (s.setWidth 16) w) 2 = crumb w 2 := by
  rw [setStreamStatus_eq, crumb_eq, ext_ins_disjoint _ _ _ _ (by omega), crumb_eq]

theorem crumb3_setStatus (s : BitVec 10) (w : BitVec 32) :
    crumb (setStreamStatus (s.setWidth 16) w) 3 = s.extractLsb' 8 2 := by
  rw [setStreamStatus_eq, crumb_eq]
  apply BitVec.eq_of_getLsbD_eq
  intro k hk
  rw [getLsbD_ext, getLsbD_ins, getLsbD_ext, if_pos (by omega)]
  have : decide (30 - 3 * 2 + k < 32) = true := by simp; omega
  rw [this, Bool.true_and]
  congr 2; omega

/-- An octet by its nibble and two crumbs. -/
theorem octet0_parts (w : BitVec 32) : octet w 0 = nibble w 0 ++ (crumb w 2 ++ crumb w 3) := by
  have h2 := crumb_octet w 0 2 (by omega) (by omega)
  have h3 := crumb_octet w 0 3 (by omega) (by omega)
  rw [Nat.mul_zero, Nat.zero_add] at h2 h3
  rw [nibble_octet_hi w 0 (by omega), h2, h3]
  generalize octet w 0 = x
  revert x; decide +kernel

theorem status_octets (w : BitVec 32) :
    w.extractLsb' 16 10 = (octet w 0).extractLsb' 0 2 ++ octet w 1 := by
  rw [octet_eq, octet_eq]
  apply BitVec.eq_of_getLsbD_eq
  intro k hk
  rw [getLsbD_ext, BitVec.getLsbD_append, getLsbD_ext, getLsbD_ext, getLsbD_ext]
  by_cases h : k < 8
  · rw [if_pos h]
    simp [h, hk]
  · rw [if_neg h]
    have h1 : k - 8 < 2 := by omega
    have h2 : k - 8 < 8 := by omega
    simp [h1, h2, hk]
    congr 1; omega

end U32

/-! ### Formats -/

theorem setFormatLoop_get : ∀ (L : List (List (BitVec 32))) (i : Nat),
    (setFormatLoop L)[i]? = (L[i]?).map (modifyHead0 fun w =>
      U32.setCrumb w 2 (if i + 1 = L.length then 3 else 2))
  | [], i => rfl
  | [p], i => by
    cases i with
    | zero => rfl
    | succ i => rfl
  | p :: q :: rest, i => by
    rw [setFormatLoop]
    cases i with
    | zero => rfl
    | succ i =>
      rw [List.getElem?_cons_succ, List.getElem?_cons_succ, setFormatLoop_get (q :: rest) i]
      simp only [List.length_cons, Nat.add_right_cancel_iff]

theorem setFormatPackets_get {L : List (List (BitVec 32))} (h : L ≠ []) :
    ∃ L', setFormatPackets L = some L' ∧ L'.length = L.length ∧
      ∀ i : Nat, L'[i]? = (L[i]?).map (modifyHead0 fun w =>
        U32.setCrumb w 2 (FlexText.growFormat L.length i)) := by
  have key : ∃ L', setFormatPackets L = some L' ∧
      ∀ i : Nat, L'[i]? = (L[i]?).map (modifyHead0 fun w =>
        U32.setCrumb w 2 (FlexText.growFormat L.length i)) := by
    match L, h with
    | [p], _ =>
      refine ⟨_, rfl, ?_⟩
      intro i
      cases i with
      | zero => rfl
      | succ i => rfl
    | p :: q :: rest, _ =>
      refine ⟨_, rfl, ?_⟩
      intro i
      cases i with
      | zero => rfl
      | succ i =>
        have hg : FlexText.growFormat (p :: q :: rest).length (i + 1) =
            if i + 1 = (q :: rest).length then 3 else 2 := by
          unfold FlexText.growFormat
          rw [if_neg (by simp), List.length_cons, List.length_cons]
          by_cases hi : i + 1 = rest.length + 1
          · rw [if_pos hi, if_pos (by rw [beq_iff_eq]; omega)]
          · rw [if_neg hi, if_neg (by rw [beq_iff_eq]; omega)]
        rw [List.getElem?_cons_succ, List.getElem?_cons_succ, setFormatLoop_get, hg]
  obtain ⟨L', h1, h2⟩ := key
  refine ⟨L', h1, ?_, h2⟩
  apply length_of_getElem?
  intro i
  rw [h2]
  cases L[i]? <;> rfl

/-- `set_format_fields` on a buffer that starts with exactly `n` stream packets. -/
theorem setFormatFields_get {b : Buf .ump} {n : Nat} (hn : 0 < n)
    (hlead : leading 4 (fun w => U32.nibble w 0 == 0xF#4) b = n) :
    ∃ b', setFormatFields b = .ok b' ∧ b'.length = b.length ∧
      ∀ i, b'[i]? = if i % 4 = 0 ∧ i / 4 < n then
        (b[i]?).map (fun w => U32.setCrumb w 2 (FlexText.growFormat n (i / 4))) else b[i]? := by
  have hL : ((chunksExact 4 b).takeWhile (fun p => U32.nibble (head0 p) 0 == 0xF#4)).length = n := hlead
  have hne : (chunksExact 4 b).takeWhile (fun p => U32.nibble (head0 p) 0 == 0xF#4) ≠ [] := by
    intro h; rw [h] at hL; simp at hL; omega
  obtain ⟨L', e1, e2, e3⟩ := setFormatPackets_get hne
  have hnb : n ≤ b.length / 4 := by
    rw [← hL, ← chunksExact_length (k := 4) (by omega) b]
    exact (List.takeWhile_prefix _).length_le
  rw [hL] at e2 e3
  have hget := onChunks_heads (k := 4) (by omega) (fun i => if i < n then
      fun w => U32.setCrumb w 2 (FlexText.growFormat n i) else id)
    (fun cs => L' ++ cs.drop L'.length) b (by
      intro i
      by_cases hi : i < n
      · rw [List.getElem?_append_left (by omega), e3, if_pos hi]
        congr 1
        have hpre : (chunksExact 4 b).takeWhile (fun p => U32.nibble (head0 p) 0 == 0xF#4) <+:
          chunksExact 4 b := List.takeWhile_prefix _
        obtain ⟨t, ht⟩ := hpre
        generalize hX : (chunksExact 4 b).takeWhile (fun p => U32.nibble (head0 p) 0 == 0xF#4) = X at *
        rw [← ht, List.getElem?_append_left (by omega)]
      · rw [List.getElem?_append_right (by omega), List.getElem?_drop, if_neg hi,
          show L'.length + (i - L'.length) = i by omega]
        cases (chunksExact 4 b)[i]? with
        | none => rfl
        | some p => cases p <;> rfl)
  have hres : setFormatFields b = .ok (onChunksExact 4 b fun cs => L' ++ cs.drop L'.length) := by
    unfold setFormatFields
    simp only
    rw [e1]
  have hpt : ∀ i : Nat, (onChunksExact 4 b fun cs => L' ++ cs.drop L'.length)[i]? =
      if i % 4 = 0 ∧ i / 4 < n then
        (b[i]?).map (fun w => U32.setCrumb w 2 (FlexText.growFormat n (i / 4))) else b[i]? := by
    intro i
    rw [hget]
    by_cases h0 : i % 4 = 0 ∧ i / 4 < n
    · rw [if_pos ⟨h0.1, by omega⟩, if_pos h0, if_pos h0.2]
    · rw [if_neg h0]
      split
      · next h =>
        rw [if_neg (fun c => h0 ⟨h.1, c⟩)]
        cases b[i]? <;> rfl
      · rfl
  refine ⟨_, hres, ?_, hpt⟩
  apply length_of_getElem?
  intro i
  rw [hpt]
  split
  · cases b[i]? <;> rfl
  · rfl

namespace StreamText

theorem sizeForStr_eq {off : Nat} (ho : off < 2) (n : Nat) :
    sizeForStr off n = 4 * textPackets (14 - off) n := by
  have : off = 0 ∨ off = 1 := by omega
  unfold sizeForStr textPackets
  simp only
  rcases this with rfl | rfl
  · by_cases h1 : n % 14 = 0
    · rw [if_pos (by simpa using h1)]
      by_cases h2 : n = 0
      · rw [if_pos (by simpa using h2), if_pos h2]
      · rw [if_neg (by simpa using h2), if_neg h2]; omega
    · rw [if_neg (by simpa using h1), if_neg (by omega)]; omega
  · by_cases h1 : n % 13 = 0
    · rw [if_pos (by simpa using h1)]
      by_cases h2 : n = 0
      · rw [if_pos (by simpa using h2), if_pos h2]
      · rw [if_neg (by simpa using h2), if_neg h2]; omega
    · rw [if_neg (by simpa using h1), if_neg (by omega)]; omega

/-- First two octets of packet `j` of `n`. -/
def headOctet (n j : Nat) (s : BitVec 10) (r : Nat) : BitVec 8 :=
  if r = 0 then 0xF#4 ++ (FlexText.growFormat n j ++ s.extractLsb' 8 2) else s.extractLsb' 0 8

/-- The rewritten header of a packet of the message. -/
def cleared (off : Nat) (w : BitVec 32) : BitVec 32 :=
  let w := if off < 1 then U32.setOctet w 2 0 else w
  if off < 2 then U32.setOctet w 3 0 else w

theorem cleared_octet {off : Nat} (ho : off < 2) (w : BitVec 32) {r : Nat} (hr : r < 4) :
    U32.octet (cleared off w) r = if 2 + off ≤ r then 0 else U32.octet w r := by
  unfold cleared
  have : off = 0 ∨ off = 1 := by omega
  rcases this with rfl | rfl
  · simp only [if_true, Nat.zero_lt_succ]
    rw [U32.octet_setOctet _ _ _ (by omega) hr, U32.octet_setOctet _ _ _ (by omega) hr]
    by_cases h3 : r = 3
    · rw [if_pos h3, if_pos (by omega)]
    · rw [if_neg h3]
      by_cases h2 : r = 2
      · rw [if_pos h2, if_pos (by omega)]
      · rw [if_neg h2, if_neg (by omega)]
  · simp only [Nat.lt_irrefl, if_false, Nat.lt_succ_self, if_true]
    rw [U32.octet_setOctet _ _ _ (by omega) hr]
    by_cases h3 : r = 3
    · rw [if_pos h3, if_pos (by omega)]
    · rw [if_neg h3, if_neg (by omega)]

/-- Header after all three rewrites. -/
theorem header_octet {off : Nat} (ho : off < 2) (n j : Nat) (s : BitVec 10) (w : BitVec 32)
    {r : Nat} (hr : r < 4) :
    U32.octet (U32.setCrumb (setStreamStatus (s.setWidth 16) (U32.setNibble (cleared off w) 0 0xF)) 2
      (FlexText.growFormat n j)) r =
      if r < 2 then headOctet n j s r else if 2 + off ≤ r then 0 else U32.octet w r := by
  by_cases h0 : r = 0
  · subst h0
    rw [if_pos (by omega), U32.octet0_parts, U32.nibble_setCrumb_ne _ _ _ (by omega) (by omega) (by omega),
      U32.crumb_setCrumb _ _ _ (by omega) (by omega), U32.crumb_setCrumb _ _ _ (by omega) (by omega),
      if_pos rfl, if_neg (by omega), U32.nibble0_setStatus, U32.crumb3_setStatus,
      U32.nibble_setNibble _ _ _ (by omega) (by omega), if_pos rfl]
    rfl
  · rw [U32.octet_setCrumb_ne _ _ _ (by omega) hr (by omega)]
    by_cases h1 : r = 1
    · subst h1
      rw [if_pos (by omega), U32.octet1_setStatus]
      rfl
    · rw [if_neg (by omega), U32.octet_setStatus_ne _ _ (by omega) hr,
        U32.octet_setNibble_ne _ _ _ (by omega) hr (by omega), cleared_octet ho _ hr]

theorem clearPacket_length (off : Nat) (p : Buf .ump) (h : p.length = 4) :
    (clearPacket off p).length = 4 := by
  unfold clearPacket
  rw [List.length_append, List.length_map, List.length_take, h]; rfl

theorem clearPayload_get {off : Nat} (ho : off < 2) (b : Buf .ump) :
    ∃ b', clearPayload off b = .ok b' ∧ b'.length = b.length ∧ ∀ i, b'[i]? =
      if i / 4 < b.length / 4 then (if i % 4 = 0 then (b[i]?).map (cleared off) else some 0)
      else b[i]? := by
  have hres : clearPayload off b = .ok (onChunksExact 4 b (List.map (clearPacket off))) := by
    unfold clearPayload
    rw [decide_eq_true ho]
    rfl
  have hpt : ∀ i : Nat, (onChunksExact 4 b (List.map (clearPacket off)))[i]? =
      if i / 4 < b.length / 4 then (if i % 4 = 0 then (b[i]?).map (cleared off) else some 0)
      else b[i]? := by
    intro i
    rw [onChunks_map (by omega) _ (clearPacket_length off)]
    by_cases h : i / 4 < b.length / 4
    · rw [if_pos h, if_pos h]
      unfold clearPacket
      have ht : ((b.drop (4 * (i / 4))).take 4).take 1 = (b.drop (4 * (i / 4))).take 1 := by
        rw [List.take_take]; congr 1
      rw [ht]
      show ((List.map (cleared off) ((b.drop (4 * (i / 4))).take 1)) ++ [0, 0, 0])[i % 4]? = _
      have hl1 : (List.map (cleared off) ((b.drop (4 * (i / 4))).take 1)).length = 1 := by
        rw [List.length_map, List.length_take, List.length_drop]; omega
      by_cases h0 : i % 4 = 0
      · rw [if_pos h0, h0, List.getElem?_append_left (by omega), List.getElem?_map,
          List.getElem?_take_of_lt (by omega), List.getElem?_drop]
        congr 2; omega
      · rw [if_neg h0, List.getElem?_append_right (by omega), hl1]
        have : i % 4 - 1 = 0 ∨ i % 4 - 1 = 1 ∨ i % 4 - 1 = 2 := by omega
        rcases this with e | e | e <;> rw [e] <;> rfl
    · rw [if_neg h, if_neg h]
  refine ⟨_, hres, ?_, hpt⟩
  apply length_of_getElem?
  intro i
  rw [hpt]
  split
  · split
    · cases b[i]? <;> rfl
    · rw [List.getElem?_eq_getElem (by omega)]; rfl
  · rfl

theorem writeHeader_get {b : Buf .ump} {w : BitVec 32} (hw : b[0]? = some w) {n : Nat}
    (hl : 4 * n ≤ b.length) :
    ∃ b', writeHeader b (4 * n) = .ok b' ∧ b'.length = b.length ∧ ∀ i, b'[i]? =
      if i % 4 = 0 ∧ i / 4 < b.length / 4 then
        (b[i]?).map (fun x => if i / 4 < n then
          setStreamStatus (streamStatusOf w) (U32.setNibble x 0 0xF) else 0)
      else b[i]? := by
  let F := fun x => setStreamStatus (streamStatusOf w) (U32.setNibble x 0 0xF)
  have hres : writeHeader b (4 * n) = .ok
      (onChunksExact 4 (b.take (4 * n)) (List.map (modifyHead0 F)) ++
        onChunksExact 4 (b.drop (4 * n)) (List.map (modifyHead0 fun _ => 0))) := by
    unfold writeHeader sliceTo
    have : at' b 0 = .ok w := by unfold at'; rw [hw]
    rw [this, Res.ok_bind]
    simp only
    rw [if_pos hl, Res.ok_bind]
    rfl
  have h1 := onChunks_heads (k := 4) (by omega) (fun _ => F) (List.map (modifyHead0 F))
    (b.take (4 * n)) (fun i => by rw [List.getElem?_map])
  have h2 := onChunks_heads (k := 4) (by omega) (fun _ _ => 0) (List.map (modifyHead0 fun _ => 0))
    (b.drop (4 * n)) (fun i => by rw [List.getElem?_map])
  have hlt : (b.take (4 * n)).length = 4 * n := by rw [List.length_take]; omega
  have hl1 : (onChunksExact 4 (b.take (4 * n)) (List.map (modifyHead0 F))).length = 4 * n := by
    refine Eq.trans ?_ hlt
    apply length_of_getElem?
    intro i
    rw [h1]
    split
    · rw [Option.isSome_map]
    · rfl
  have hl2 : (onChunksExact 4 (b.drop (4 * n)) (List.map (modifyHead0 fun _ => 0))).length =
      b.length - 4 * n := by
    rw [← List.length_drop]
    apply length_of_getElem?
    intro i
    rw [h2]
    split
    · rw [Option.isSome_map]
    · rfl
  refine ⟨_, hres, by rw [List.length_append, hl1, hl2]; omega, ?_⟩
  intro i
  by_cases hi : i < 4 * n
  · rw [List.getElem?_append_left (by omega), h1, hlt, List.getElem?_take_of_lt hi]
    by_cases h0 : i % 4 = 0
    · rw [if_pos ⟨h0, by omega⟩, if_pos ⟨h0, by omega⟩]
      simp only [show i / 4 < n by omega, if_true]
      rfl
    · rw [if_neg (fun c => h0 c.1), if_neg (fun c => h0 c.1)]
  · rw [List.getElem?_append_right (by omega), hl1, h2, List.getElem?_drop, List.length_drop,
      show 4 * n + (i - 4 * n) = i by omega]
    by_cases h0 : i % 4 = 0 ∧ i / 4 < b.length / 4
    · rw [if_pos ⟨by omega, by omega⟩, if_pos h0]
      simp only [show ¬ i / 4 < n by omega, if_false]
    · rw [if_neg (by omega), if_neg h0]

/-- What setting the text leaves in a buffer. -/
theorem fill_full {off : Nat} (ho : off < 2) {b : Buf .ump} {w : BitVec 32} (hw : b[0]? = some w)
    (l : List (BitVec 8)) (hl : 4 * textPackets (14 - off) l.length ≤ b.length) :
    ∃ b', (do
      let b ← clearPayload off b
      let b ← writeHeader b (sizeForStr off l.length)
      let b ← setFormatFields b
      writeText off b l) = .ok b' ∧ b'.length = b.length ∧
      (∀ a, a / 16 < b.length / 4 → octetAt b' a = some
        (if a % 16 < 2 then
          (if a / 16 < textPackets (14 - off) l.length then
            headOctet (textPackets (14 - off) l.length) (a / 16) (w.extractLsb' 16 10) (a % 16)
           else 0)
         else if a % 16 < 2 + off then
          (if a / 16 < textPackets (14 - off) l.length then (octetAt b a).getD 0 else 0)
         else (l[slotIndex (2 + off) a]?).getD 0)) ∧
      ∀ a, b.length / 4 ≤ a / 16 → octetAt b' a = octetAt b a := by
  have hpos := textPackets_pos (cap := 14 - off) (n := l.length) (by omega)
  have hle := le_textPackets (cap := 14 - off) (n := l.length) (by omega)
  rw [sizeForStr_eq ho]
  generalize hn : textPackets (14 - off) l.length = n at *
  obtain ⟨b1, c1, c2, c3⟩ := clearPayload_get ho b
  have hw1 : b1[0]? = some (cleared off w) := by
    rw [c3, if_pos (by omega), if_pos rfl, hw]; rfl
  obtain ⟨b2, d1, d2, d3⟩ := writeHeader_get hw1 (n := n) (by omega)
  have hst : streamStatusOf (cleared off w) = (w.extractLsb' 16 10).setWidth 16 := by
    rw [streamStatusOf_eq, U32.status_octets, U32.status_octets, cleared_octet ho _ (by omega),
      cleared_octet ho _ (by omega), if_neg (by omega), if_neg (by omega)]
  have hlead : leading 4 (fun w => U32.nibble w 0 == 0xF#4) b2 = n := by
    apply Nat.le_antisymm
    · apply Nat.le_of_not_lt
      intro hc
      obtain ⟨f1, x, f2, f3⟩ := leading_spec (by omega) _ b2 n hc
      rw [d3, if_pos ⟨by omega, by omega⟩] at f2
      simp only [show ¬ 4 * n / 4 < n by omega, if_false] at f2
      rw [List.getElem?_eq_getElem (by omega)] at f2
      cases f2
      exact absurd (show (U32.nibble (0 : BitVec 32) 0 == 0xF#4) = true from f3) (by decide)
    · apply le_leading (by omega) _ b2 n (by omega)
      intro j hj
      refine ⟨setStreamStatus (streamStatusOf (cleared off w)) (U32.setNibble (b1[4 * j]'(by omega)) 0 0xF),
        ?_, ?_⟩
      · rw [d3, if_pos ⟨by omega, by omega⟩, List.getElem?_eq_getElem (by omega)]
        simp only [show 4 * j / 4 < n by omega, if_true, Option.map_some]
      · rw [hst, U32.nibble0_setStatus, U32.nibble_setNibble _ _ _ (by omega) (by omega), if_pos rfl]
        rfl
  obtain ⟨b3, g1, g2, g3⟩ := setFormatFields_get hpos hlead
  obtain ⟨b4, w1, w2, w3⟩ := wloop_eq (first := 2 + off) (by omega) (m := n) l 0 b3 (by omega)
    (by rw [show 16 - (2 + off) = 14 - off by omega]; omega)
  refine ⟨b4, ?_, by omega, ?_, fun a ha => by
    have hs : slotIndex (2 + off) a = (16 - (2 + off)) * (a / 16) + (a % 16 - (2 + off)) := rfl
    have hm : (14 - off) * n ≤ (14 - off) * (a / 16) := Nat.mul_le_mul_left _ (by omega)
    rw [show 16 - (2 + off) = 14 - off by omega] at hs
    rw [w3, if_neg (by omega)]
    unfold octetAt
    rw [g3, if_neg (by omega), d3, if_neg (by omega), c3, if_neg (by omega)]⟩
  · rw [c1, Res.ok_bind, d1, Res.ok_bind, g1, Res.ok_bind]
    unfold writeText
    rw [stream_writeLoop ho]
    rw [Nat.zero_div, Nat.zero_mod] at w1
    exact w1
  · intro a ha
    have ho3 : octetAt b3 a = (b3[a / 4]?).map (U32.octet · (a % 4)) := rfl
    -- octets before the text is written
    have hpre : octetAt b3 a = some (if a % 16 < 2 then
          (if a / 16 < n then headOctet n (a / 16) (w.extractLsb' 16 10) (a % 16) else 0)
         else if a % 16 < 2 + off then
          (if a / 16 < n then (octetAt b a).getD 0 else 0) else 0) := by
      have hz : ∀ r, r < 4 → U32.octet (0 : BitVec 32) r = 0 := by
        intro r hr
        have : r = 0 ∨ r = 1 ∨ r = 2 ∨ r = 3 := by omega
        rcases this with e | e | e | e <;> rw [e] <;> decide
      by_cases h4 : a % 16 < 4
      · have hbw : b[a / 4]? = some (b[a / 4]'(by omega)) := List.getElem?_eq_getElem (by omega)
        have hob : octetAt b a = some (U32.octet (b[a / 4]'(by omega)) (a % 4)) := by
          unfold octetAt; rw [hbw]; rfl
        have hb1 : b1[a / 4]? = some (cleared off (b[a / 4]'(by omega))) := by
          rw [c3, if_pos (by omega), if_pos (by omega), hbw]; rfl
        by_cases hj : a / 16 < n
        · rw [ho3, g3, if_pos ⟨by omega, by omega⟩, d3, if_pos ⟨by omega, by omega⟩, hb1]
          simp only [Option.map_some, show a / 4 / 4 < n by omega, if_true]
          rw [hst, header_octet ho _ _ _ _ (by omega), hob]
          simp only [hj, if_true, Option.getD_some]
          rw [show a % 4 = a % 16 by omega, show a / 4 / 4 = a / 16 by omega]
          by_cases h2 : a % 16 < 2
          · rw [if_pos h2, if_pos h2]
          · rw [if_neg h2, if_neg h2]
            by_cases h3 : a % 16 < 2 + off
            · rw [if_pos h3, if_neg (by omega)]
            · rw [if_neg h3, if_pos (by omega)]
        · rw [ho3, g3, if_neg (by omega), d3, if_pos ⟨by omega, by omega⟩, hb1]
          simp only [Option.map_some, show ¬ a / 4 / 4 < n by omega, if_false]
          rw [hz _ (by omega)]
          simp only [hj, if_false, ite_self]
      · rw [ho3, g3, if_neg (by omega), d3, if_neg (by omega), c3, if_pos (by omega),
          if_neg (by omega), if_neg (by omega), if_neg (by omega), Option.map_some,
          hz _ (by omega)]
    rw [w3]
    by_cases h2 : a % 16 < 2
    · rw [if_neg (by omega), hpre, if_pos h2, if_pos h2]
    · rw [if_neg h2]
      by_cases h3 : a % 16 < 2 + off
      · rw [if_neg (by omega), hpre, if_neg h2, if_pos h3, if_pos h3]
      · rw [if_neg h3]
        by_cases hs : slotIndex (2 + off) a < l.length
        · rw [if_pos ⟨by omega, by omega, by omega⟩, Nat.sub_zero, List.getElem?_eq_getElem hs]; rfl
        · rw [if_neg (by omega), hpre, if_neg h2, if_neg h3, List.getElem?_eq_none (by omega)]; rfl

theorem fill_eq {off : Nat} (ho : off < 2) {b : Buf .ump} {w : BitVec 32} (hw : b[0]? = some w)
    (l : List (BitVec 8)) (hl : 4 * textPackets (14 - off) l.length ≤ b.length) :
    ∃ b', (do
      let b ← clearPayload off b
      let b ← writeHeader b (sizeForStr off l.length)
      let b ← setFormatFields b
      writeText off b l) = .ok b' ∧ b'.length = b.length ∧
      ∀ a, a / 16 < b.length / 4 → octetAt b' a = some
        (if a % 16 < 2 then
          (if a / 16 < textPackets (14 - off) l.length then
            headOctet (textPackets (14 - off) l.length) (a / 16) (w.extractLsb' 16 10) (a % 16)
           else 0)
         else if a % 16 < 2 + off then
          (if a / 16 < textPackets (14 - off) l.length then (octetAt b a).getD 0 else 0)
         else (l[slotIndex (2 + off) a]?).getD 0) := by
  obtain ⟨b', h1, h2, h3, -⟩ := fill_full ho hw l hl
  exact ⟨b', h1, h2, h3⟩

end StreamText

end Midi2
