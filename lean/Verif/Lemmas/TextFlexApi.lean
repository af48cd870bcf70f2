import Verif.Lemmas.TextFlexHold

/-! Flex data text messages: group, channel, construction and parsing. -/

namespace Midi2

namespace FlexText

/-! ### `set_group` -/

/-- Packets reached by `set_group`. -/
def lead (b : Buf .ump) : Nat := leading 4 (fun w => U32.nibble w 0 == 0xD#4) b

theorem setGroup_word (b : Buf .ump) (g : BitVec 4) (i : Nat) :
    (setGroup b g)[i]? =
      if i % 4 = 0 ∧ i / 4 < lead b then (b[i]?).map (U32.setNibble · 1 g) else b[i]? := by
  have : setGroup b g = onHeads 4 (fun w => U32.nibble w 0 == 0xD#4) (U32.setNibble · 1 g) b := rfl
  rw [this, onHeads_getElem? (by omega)]; rfl

theorem setGroup_length (b : Buf .ump) (g : BitVec 4) : (setGroup b g).length = b.length := by
  have : setGroup b g = onHeads 4 (fun w => U32.nibble w 0 == 0xD#4) (U32.setNibble · 1 g) b := rfl
  rw [this, onHeads_length (by omega)]

/-- Only the first octet of a header changes. -/
theorem setGroup_octet (b : Buf .ump) (g : BitVec 4) {a : Nat} (ha : a % 16 ≠ 0) :
    octetAt (setGroup b g) a = octetAt b a := by
  unfold octetAt
  rw [setGroup_word]
  split
  · next h =>
    cases b[a / 4]? with
    | none => rfl
    | some w =>
      simp only [Option.map_some]
      rw [U32.octet_setNibble_ne _ _ _ (by omega) (by omega) (by omega)]
  · rfl

theorem setGroup_head {b : Buf .ump} {w : BitVec 32} (g : BitVec 4) {j : Nat} (hj : j < lead b)
    (hw : b[4 * j]? = some w) : (setGroup b g)[4 * j]? = some (U32.setNibble w 1 g) := by
  rw [setGroup_word, if_pos ⟨by omega, by omega⟩, hw]; rfl

theorem le_lead {b : Buf .ump} {n : Nat} (hl : 4 * n ≤ b.length)
    (h : ∀ j, j < n → ∃ w, b[4 * j]? = some w ∧ U32.nibble w 0 = 0xD#4) : n ≤ lead b :=
  le_leading (by omega) _ b n hl fun j hj => by
    obtain ⟨w, h1, h2⟩ := h j hj
    exact ⟨w, h1, by rw [h2]; rfl⟩

theorem Backs.lead_pos {t : FlexText} {b : Buf .ump} (B : t.Backs b) : 0 < lead b := by
  have := B.len
  have : 1 ≤ lead b := le_lead (by omega) (fun j hj => by
    obtain ⟨w, e1, e2, _⟩ := backs_word B
    have : j = 0 := by omega
    subst this
    exact ⟨w, e1, e2⟩)
  omega

theorem octetAt_word0 (b : Buf .ump) (j r : Nat) (hr : r < 4) :
    octetAt b (16 * j + r) = (b[4 * j]?).map (U32.octet · r) := by
  rw [show 16 * j + r = 4 * (4 * j) + r by omega, Sx.octetAt_head _ _ _ hr]

theorem Holds.setGroup {t : FlexText} {b : Buf .ump} {g : BitVec 4} {cs : Nat → Option (BitVec 4)}
    {l : List (BitVec 8)} (H : t.Holds b g cs l) (g' : BitVec 4) :
    t.Holds (FlexText.setGroup b g') g' cs l := by
  have hlead : textPackets 12 l.length ≤ lead b := le_lead H.whole fun j hj => by
    obtain ⟨w, e1, e2, _⟩ := H.word hj
    exact ⟨w, e1, e2⟩
  refine ⟨by rw [setGroup_length]; exact H.whole, ?_, ?_⟩
  · intro j hj r hr
    by_cases h0 : r = 0
    · subst h0
      obtain ⟨w, e1, e2, _⟩ := H.word hj
      rw [octetAt_word0 _ _ _ (by omega), setGroup_head g' (by omega) e1, Option.map_some,
        U32.octet_nibbles _ 0 (by omega), U32.nibble_setNibble _ _ _ (by omega) (by omega),
        U32.nibble_setNibble _ _ _ (by omega) (by omega), if_neg (by omega), if_pos rfl, e2]
      rfl
    · rw [setGroup_octet _ _ (by omega), H.head j hj r hr]
      unfold headOctet
      rw [if_neg h0, if_neg h0]
  · intro i hi
    rw [setGroup_length] at hi
    have ha : slotAddr 4 i = 16 * (i / 12) + 4 + i % 12 := rfl
    rw [setGroup_octet _ _ (by omega)]
    exact H.slot i hi

theorem textBytes_congr {b b' : Buf .ump} (h4 : 4 ≤ b.length) (hl : b'.length = b.length)
    (h : ∀ a, 4 ≤ a % 16 → octetAt b' a = octetAt b a) : textBytes b' = textBytes b := by
  rw [textBytes_eq b h4, textBytes_eq b' (by omega), hl]
  congr 2
  apply List.map_congr_left
  intro i hi
  have ha : slotAddr 4 i = 16 * (i / 12) + 4 + i % 12 := rfl
  rw [h _ (by omega)]

/-! ### `set_optional_channel` -/

theorem setChannel_ok {b : Buf .ump} {w : BitVec 32} (hw : b[0]? = some w) (c : Option (BitVec 4)) :
    setChannel b c = .ok (b.set 0 (putChannel c w)) := by
  unfold setChannel modifyAt
  rw [hw]

theorem set0_octet {b : Buf .ump} (hb : 0 < b.length) (w : BitVec 32) (a : Nat) :
    octetAt (b.set 0 w) a = if a < 4 then some (U32.octet w a) else octetAt b a := by
  rw [octetAt_set hb]
  by_cases h : a < 4
  · rw [if_pos (by omega), if_pos h]
    congr 2; omega
  · rw [if_neg (by omega), if_neg h]

/-- The channels of the packets after `set_optional_channel`. -/
def chans (c : Option (BitVec 4)) (cs : Nat → Option (BitVec 4)) (j : Nat) : Option (BitVec 4) :=
  if j = 0 then c else cs j

theorem Holds.setChannel {t : FlexText} {b : Buf .ump} {g : BitVec 4} {cs : Nat → Option (BitVec 4)}
    {l : List (BitVec 8)} (H : t.Holds b g cs l) (c : Option (BitVec 4)) :
    ∃ b', FlexText.setChannel b c = .ok b' ∧ b'.length = b.length ∧ t.Holds b' g (chans c cs) l := by
  obtain ⟨w, e1, e2, e3, e4, e5, e6, e7⟩ := H.word H.packets_pos
  rw [Nat.mul_zero] at e1
  have h4 := H.len4
  refine ⟨_, setChannel_ok e1 c, List.length_set .., ?_⟩
  refine ⟨by rw [List.length_set]; exact H.whole, ?_, ?_⟩
  · intro j hj r hr
    rw [set0_octet (by omega)]
    by_cases h0 : j = 0
    · subst h0
      rw [if_pos (by omega), Nat.mul_zero, Nat.zero_add]
      have hold := H.head 0 hj r hr
      rw [octetAt_word0 _ _ _ hr, Nat.mul_zero, e1, Option.map_some] at hold
      have hold := Option.some.inj hold
      by_cases h1 : r = 1
      · subst h1
        rw [octet1_putChannel, e4]; rfl
      · rw [octet_putChannel_ne _ _ hr h1, hold]
        unfold headOctet
        simp only [h1, if_false]
    · rw [if_neg (by omega), H.head j hj r hr]
      unfold chans
      rw [if_neg h0]
  · intro i hi
    rw [List.length_set] at hi
    have ha : slotAddr 4 i = 16 * (i / 12) + 4 + i % 12 := rfl
    rw [set0_octet (by omega), if_neg (by omega)]
    exact H.slot i hi

/-! ### Construction -/

/-- Header of a new message. -/
def newWord (t : FlexText) : BitVec 32 :=
  U32.setOctet (U32.setOctet (putChannel none (U32.setNibble (U32.setNibble 0 0 0xD) 1 0)) 2 t.bank)
    3 t.status

theorem newWord_octet (t : FlexText) {r : Nat} (hr : r < 4) :
    U32.octet t.newWord r = headOctet 1 0 0 none t.bank t.status r := by
  unfold newWord
  have : r = 0 ∨ r = 1 ∨ r = 2 ∨ r = 3 := by omega
  rcases this with rfl | rfl | rfl | rfl
  · rw [U32.octet_setOctet _ _ _ (by omega) (by omega), if_neg (by omega),
      U32.octet_setOctet _ _ _ (by omega) (by omega), if_neg (by omega)]
    show _ = (0xD0#8)
    decide
  · rw [U32.octet_setOctet _ _ _ (by omega) (by omega), if_neg (by omega),
      U32.octet_setOctet _ _ _ (by omega) (by omega), if_neg (by omega)]
    show _ = (0x10#8)
    decide
  · rw [U32.octet_setOctet _ _ _ (by omega) (by omega), if_neg (by omega),
      U32.octet_setOctet _ _ _ (by omega) (by omega), if_pos rfl]
    rfl
  · rw [U32.octet_setOctet _ _ _ (by omega) (by omega), if_pos rfl]
    rfl

theorem init_eq (t : FlexText) {b : Buf .ump} (h4 : 4 ≤ b.length) (h0 : b[0]? = some 0) :
    ∃ b', t.init b = .ok b' ∧ b'.length = b.length ∧ b'[0]? = some t.newWord ∧
      ∀ i, i ≠ 0 → b'[i]? = b[i]? ∨ i % 4 = 0 ∧ b'[i]? = (b[i]?).map (U32.setNibble · 1 0) := by
  have hb : 0 < b.length := by omega
  have e1 : (Fld.umpType 0xD).write32 b () = .ok (b.set 0 (U32.setNibble 0 0 0xD)) := by
    show modifyAt b 0 _ = _
    unfold modifyAt; rw [h0]
  have hlead : 0 < lead (b.set 0 (U32.setNibble 0 0 0xD)) := by
    have : 1 ≤ lead (b.set 0 (U32.setNibble 0 0 0xD)) := le_lead (by rw [List.length_set]; omega)
      (fun j hj => by
        have : j = 0 := by omega
        subst this
        exact ⟨U32.setNibble 0 0 0xD, by rw [Nat.mul_zero, List.getElem?_set_self hb], by decide⟩)
    omega
  have e2 : (setGroup (b.set 0 (U32.setNibble 0 0 0xD)) 0)[0]? =
      some (U32.setNibble (U32.setNibble 0 0 0xD) 1 0) :=
    setGroup_head 0 (j := 0) hlead (by rw [Nat.mul_zero, List.getElem?_set_self hb])
  have e3 := setChannel_ok e2 none
  have hl2 : (setGroup (b.set 0 (U32.setNibble 0 0 0xD)) 0).length = b.length := by
    rw [setGroup_length, List.length_set]
  unfold init
  rw [e1, Res.ok_bind]
  simp only
  rw [e3, Res.ok_bind]
  have e4 : ∀ (x : Buf .ump) (w : BitVec 32), 0 < x.length →
      (Fld.flexBank t.bank).write32 (x.set 0 w) () = .ok (x.set 0 (U32.setOctet w 2 t.bank)) := by
    intro x w hx
    show modifyAt _ 0 _ = _
    unfold modifyAt
    rw [List.getElem?_set_self hx]
    simp only [List.set_set]
  have e5 : ∀ (x : Buf .ump) (w : BitVec 32), 0 < x.length →
      (Fld.flexStatus t.status).write32 (x.set 0 w) () = .ok (x.set 0 (U32.setOctet w 3 t.status)) := by
    intro x w hx
    show modifyAt _ 0 _ = _
    unfold modifyAt
    rw [List.getElem?_set_self hx]
    simp only [List.set_set]
  rw [e4 _ _ (by omega), Res.ok_bind, e5 _ _ (by omega), Res.ok_bind]
  refine ⟨_, rfl, by rw [List.length_set, hl2], by rw [List.getElem?_set_self (by omega)]; rfl, ?_⟩
  intro i hi
  rw [List.getElem?_set_ne (by omega), setGroup_word]
  split
  · rename_i h
    right; exact ⟨h.1, by rw [List.getElem?_set_ne (by omega)]⟩
  · left; rw [List.getElem?_set_ne (by omega)]

theorem init_backs (t : FlexText) {b : Buf .ump} (h4 : 4 ≤ b.length) (h0 : b[0]? = some 0) :
    ∃ b', t.init b = .ok b' ∧ b'.length = b.length ∧ t.Backs b' ∧ group b' = .ok 0 ∧
      channel b' = .ok none := by
  obtain ⟨b', e1, e2, e3, _⟩ := init_eq t h4 h0
  refine ⟨b', e1, e2, ?_, ?_, ?_⟩
  · apply backs_of_word (by omega) e3
    · rw [U32.nibble_octet_hi _ 0 (by omega), newWord_octet t (by omega)]; exact Sx.append_hi _ _
    · rw [newWord_octet t (by omega)]; rfl
    · rw [newWord_octet t (by omega)]; rfl
  · rw [group_word e3, show (1 : Nat) = 2 * 0 + 1 from rfl, U32.nibble_octet_lo _ 0 (by omega),
      newWord_octet t (by omega)]; exact congrArg Res.ok (Sx.append_lo _ _)
  · rw [channel_word e3]
    congr 1
    exact channelOf_bits (f := 0) (by rw [newWord_octet t (by omega)]; rfl)

/-- Over a buffer whose text slots are zero. -/
theorem init_holds (t : FlexText) {b : Buf .ump} (h4 : 4 ≤ b.length) (h0 : b[0]? = some 0)
    (hz : ∀ i, i < 12 * (b.length / 4) → octetAt b (slotAddr 4 i) = some 0) :
    ∃ b', t.init b = .ok b' ∧ b'.length = b.length ∧ t.Holds b' 0 (fun _ => none) [] := by
  obtain ⟨b', e1, e2, e3, e4⟩ := init_eq t h4 h0
  have hp : textPackets 12 (List.length ([] : List (BitVec 8))) = 1 := rfl
  refine ⟨b', e1, e2, ⟨by rw [hp]; omega, ?_, ?_⟩⟩
  · intro j hj r hr
    rw [hp] at hj ⊢
    have : j = 0 := by omega
    subst this
    rw [octetAt_word0 _ _ _ hr, Nat.mul_zero, e3, Option.map_some, newWord_octet t hr]
  · intro i hi
    rw [e2] at hi
    have ha : slotAddr 4 i = 16 * (i / 12) + 4 + i % 12 := rfl
    have := hz i hi
    show octetAt b' _ = some 0
    rw [← this]
    unfold octetAt
    rcases e4 (slotAddr 4 i / 4) (by omega) with e | ⟨e, _⟩
    · rw [e]
    · omega

theorem zeros_octet {n a : Nat} (h : a < 4 * n) :
    octetAt (List.replicate n (0 : BitVec 32)) a = some 0 := by
  unfold octetAt
  rw [List.getElem?_replicate, if_pos (by omega), Option.map_some]
  have : a % 4 = 0 ∨ a % 4 = 1 ∨ a % 4 = 2 ∨ a % 4 = 3 := by omega
  rcases this with e | e | e | e <;> rw [e] <;> decide

theorem init_zeros (t : FlexText) {n : Nat} (h4 : 4 ≤ n) :
    ∃ b', t.init (List.replicate n 0) = .ok b' ∧ b'.length = n ∧
      t.Holds b' 0 (fun _ => none) [] := by
  obtain ⟨b', e1, e2, e3⟩ := init_holds t (b := List.replicate n 0)
    (by rw [List.length_replicate]; omega) (by rw [List.getElem?_replicate, if_pos (by omega)])
    (by
      intro i hi
      rw [List.length_replicate] at hi
      have ha : slotAddr 4 i = 16 * (i / 12) + 4 + i % 12 := rfl
      exact zeros_octet (by omega))
  exact ⟨b', e1, by rw [e2, List.length_replicate], e3⟩

/-! ### Parsing -/

theorem run_eq (b : Buf .ump) : run b = typedRun 4 0xD b := rfl

theorem slots_eq (b : Buf .ump) :
    slots b = (List.range (12 * (b.length / 4))).map fun i =>
      ((octetAt b (slotAddr 4 i)).getD 0).toNat := by
  unfold slots
  apply List.map_congr_left
  intro i _
  rw [Sx.octetVal_eq]
  show ((octetAt b (slotAddr 4 i)).map BitVec.toNat).getD 0 = _
  cases octetAt b (slotAddr 4 i) <;> rfl

theorem dropLast_slots (b : Buf .ump) :
    (slots b).dropLast = ((List.range (12 * (b.length / 4) - 1)).map fun i =>
      (octetAt b (slotAddr 4 i)).getD 0).map BitVec.toNat := by
  rw [slots_eq, List.dropLast_eq_take, List.length_map, List.length_range, ← List.map_take,
    List.take_range, List.map_map, Nat.min_eq_left (by omega)]
  rfl

end FlexText

theorem filter_toNat (l : List (BitVec 8)) :
    (l.filter (· ≠ 0)).map BitVec.toNat = (l.map BitVec.toNat).filter (· ≠ 0) := by
  induction l with
  | nil => rfl
  | cons x l ih =>
    rw [List.map_cons, List.filter_cons, List.filter_cons]
    by_cases h : x = 0
    · subst h
      simpa using ih
    · have : x.toNat ≠ 0 := fun c => h (BitVec.eq_of_toNat_eq c)
      rw [if_pos (by simpa using h), if_pos (by simpa using this), List.map_cons, ih]

theorem map_toNat_inj {l l' : List (BitVec 8)} (h : l.map BitVec.toNat = l'.map BitVec.toNat) :
    l = l' :=
  List.map_inj_right (fun _ _ e => BitVec.eq_of_toNat_eq e) |>.mp h

/-- Valid UTF-8. -/
theorem fromUtf8_iff (l : List (BitVec 8)) :
    (∃ s, fromUtf8 l = .ok s) ↔ ∃ s : String, utf8 s = l.map BitVec.toNat := by
  constructor
  · rintro ⟨s, h⟩
    exact ⟨s, by rw [utf8_eq, fromUtf8_ok h]⟩
  · rintro ⟨s, h⟩
    rw [utf8_eq] at h
    exact ⟨s, by rw [← map_toNat_inj h]; exact fromUtf8_strBytes s⟩

theorem fromUtf8_ne_panic (l : List (BitVec 8)) : fromUtf8 l ≠ .panic := by
  rcases fromUtf8_total l with ⟨s, h, _⟩ | ⟨h, _⟩ <;> rw [h] <;> simp

theorem seq_ne_panic {α : Type} {x : Res Unit} {y : Res α} (hx : x ≠ .panic) (hy : y ≠ .panic) :
    (x >>= fun _ => y) ≠ .panic := by
  cases x with
  | ok u => exact hy
  | err e => simp
  | panic => exact absurd rfl hx

namespace FlexText

theorem validateText_iff {b : Buf .ump} (h4 : 4 ≤ b.length) :
    validateText b = .ok () ↔ ∃ s : String, utf8 s = (slots b).dropLast.filter (· ≠ 0) := by
  unfold validateText
  rw [textBytes_eq b h4, Res.ok_bind, dropLast_slots, ← filter_toNat, ← fromUtf8_iff]
  generalize fromUtf8 _ = r
  cases r <;> simp

theorem validateText_ne_panic {b : Buf .ump} (h4 : 4 ≤ b.length) : validateText b ≠ .panic := by
  unfold validateText
  rw [textBytes_eq b h4, Res.ok_bind]
  have := fromUtf8_ne_panic (((List.range (12 * (b.length / 4) - 1)).map
      fun i => (octetAt b (slotAddr 4 i)).getD 0).filter (· ≠ 0))
  generalize fromUtf8 _ = r at *
  cases r <;> simp_all

theorem validate_type_iff {b : Buf .ump} (hb : 0 < b.length) (ty : BitVec 4) :
    (Fld.umpType ty).validate32 b = .ok () ↔ fieldAt b 0 0 4 = some ty.toNat := by
  show (at' b 0 >>= fun w => Res.check (U32.nibble w 0 == ty)) = _ ↔ _
  rw [at'_lt hb, Res.ok_bind, check_iff, type_test, fieldAt_ok hb]
  simp

theorem bank_iff (t : FlexText) (b : Buf .ump) :
    (Fld.flexBank t.bank).validate32 b = .ok () ↔
      ∀ j, 4 * (j + 1) ≤ b.length → fieldAt b (4 * j) 16 8 = some t.bank.toNat := by
  have := ranging_iff (p := 16) (n := 8) t.bank.toNat (fun w => U32.octet w 2 == t.bank) (fun w => by
    rw [beq_toNat, octet_field w (i := 2) (by omega)]) b
  exact this

theorem status_iff (t : FlexText) (b : Buf .ump) :
    (Fld.flexStatus t.status).validate32 b = .ok () ↔
      ∀ j, 4 * (j + 1) ≤ b.length → fieldAt b (4 * j) 24 8 = some t.status.toNat := by
  have := ranging_iff (p := 24) (n := 8) t.status.toNat (fun w => U32.octet w 3 == t.status) (fun w => by
    rw [beq_toNat, octet_field w (i := 3) (by omega)]) b
  exact this

theorem run_pos {t : FlexText} {b : Buf .ump} (A : t.Accepts b) : 0 < (run b).length :=
  typedRun_pos (k := 4) (ty := 0xD) (c := 8) A.formats

theorem tryFrom_iff (t : FlexText) (b : Buf .ump) : t.tryFrom b = .ok b ↔ t.Accepts b := by
  unfold tryFrom
  by_cases hl : b.length < 4
  · rw [if_pos hl]
    constructor
    · intro h; cases h
    · intro A
      have := A.len
      omega
  · rw [if_neg hl]
    have hb : 0 < b.length := by omega
    have hc : Fld.flexOptionalChannel.validate32 b = .ok () := rfl
    rw [Sx.seq_ok, Sx.seq_ok, Sx.seq_ok, Sx.seq_ok, Sx.seq_ok, Sx.seq_ok, Sx.seq_ok,
      validate_type_iff hb, groups_iff (by omega) _ hb, bank_iff, status_iff,
      validateText_iff (by omega)]
    have hf : validateFormats b = .ok () ↔ _ := formats_iff (k := 4) (by omega) 0xD 4 (by omega) b
    rw [hf]
    constructor
    · rintro ⟨_, h2, _, h3, h4, h5, h6, _⟩
      exact ⟨by omega, h5, h2, h3, h4, h6⟩
    · intro A
      refine ⟨?_, A.groups, hc, A.banks, A.statuses, A.formats, A.text, rfl⟩
      obtain ⟨w, e1, _, e3⟩ := typedRun_get (k := 4) (ty := 0xD) (by omega) (run_pos A)
      rw [Nat.mul_zero] at e1
      rw [fieldAt, e1, Option.map_some, e3]

theorem tryFrom_ne_panic (t : FlexText) (b : Buf .ump) : t.tryFrom b ≠ .panic := by
  unfold tryFrom
  by_cases hl : b.length < 4
  · rw [if_pos hl]; simp
  · rw [if_neg hl]
    have hb : 0 < b.length := by omega
    refine seq_ne_panic (at_check_ne_panic hb _) (seq_ne_panic (check_ne_panic _)
      (seq_ne_panic (by simp [Fld.validate32]) (seq_ne_panic (check_ne_panic _)
        (seq_ne_panic (check_ne_panic _) (seq_ne_panic ?_
          (seq_ne_panic (validateText_ne_panic (by omega)) (by simp)))))))
    exact formats_no_panic 4 0xD (fun w => U32.crumb w 4 == 0#2) (fun w => U32.crumb w 4 == 1#2)
      (fun w => U32.crumb w 4 == 2#2) (fun w => U32.crumb w 4 == 3#2) b

theorem tryFrom_self {t : FlexText} {b b' : Buf .ump} (h : t.tryFrom b = .ok b') : b' = b := by
  unfold tryFrom at h
  split at h
  · cases h
  · rw [Sx.seq_ok, Sx.seq_ok, Sx.seq_ok, Sx.seq_ok, Sx.seq_ok, Sx.seq_ok, Sx.seq_ok] at h
    have := h.2.2.2.2.2.2.2
    cases this; rfl

/-- `data()` of a message is accepted when its text is readable. -/
theorem Holds.accepts {t : FlexText} {b : Buf .ump} {g : BitVec 4} {cs : Nat → Option (BitVec 4)}
    {l : List (BitVec 8)} (H : t.Holds b g cs l) (hl : b.length = 4 * textPackets 12 l.length)
    (hs : ∃ s, strBytes s = (l.take (12 * textPackets 12 l.length - 1)).filter (· ≠ 0)) :
    t.Accepts b := by
  have hp := H.packets_pos
  have hword : ∀ j, j < textPackets 12 l.length → ∃ w, b[4 * j]? = some w ∧ field w 0 4 = 13 ∧
      field w 4 4 = g.toNat ∧ field w 8 2 = statusCode (textPackets 12 l.length) j ∧
      field w 16 8 = t.bank.toNat ∧ field w 24 8 = t.status.toNat := by
    intro j hj
    obtain ⟨w, e1, e2, e3, e4, _, e6, e7⟩ := H.word hj
    refine ⟨w, e1, ?_, ?_, ?_, ?_, ?_⟩
    · have := nibble_field w (i := 0) (by omega)
      rw [e2] at this; exact this.symm
    · have := nibble_field w (i := 1) (by omega)
      rw [e3] at this; exact this.symm
    · have := crumb_field w (i := 4) (by omega)
      rw [e4, growFormat_code hj] at this; exact this.symm
    · have := octet_field w (i := 2) (by omega)
      rw [e6] at this; exact this.symm
    · have := octet_field w (i := 3) (by omega)
      rw [e7] at this; exact this.symm
  have hrun : run b = (List.range (textPackets 12 l.length)).map fun i => (b[4 * i]?).getD 0 :=
    typedRun_full (k := 4) (ty := 0xD) (by omega) hl fun j hj => by
      obtain ⟨w, e1, e2, _⟩ := hword j hj
      exact ⟨w, e1, e2⟩
  have hlen : (run b).length = textPackets 12 l.length := by rw [hrun]; simp
  refine ⟨H.len4, ?_, ?_, ?_, ?_, ?_⟩
  · rw [seqOk_iff]
    refine ⟨?_, ?_⟩
    · intro e
      have := congrArg List.length e
      rw [List.length_map, hlen] at this
      simp at this; omega
    · intro j x hx
      rw [List.length_map, hlen]
      have hj : j < textPackets 12 l.length := by
        rcases Nat.lt_or_ge j (textPackets 12 l.length) with h | h
        · exact h
        · rw [List.getElem?_eq_none (by rw [List.length_map, hlen]; exact h)] at hx; cases hx
      obtain ⟨w, e1, _, _, e4, _⟩ := hword j hj
      rw [List.getElem?_map, hrun, List.getElem?_map, List.getElem?_range hj] at hx
      simp only [Option.map_some, e1, Option.getD_some, Option.some.injEq] at hx
      rw [← hx, e4]
  · intro j hj _
    rw [hlen] at hj
    obtain ⟨w, e1, _, e3, _⟩ := hword j hj
    obtain ⟨w0, f1, _, f3, _⟩ := hword 0 hp
    rw [Nat.mul_zero] at f1
    rw [fieldAt, fieldAt, e1, f1, Option.map_some, Option.map_some, e3, f3]
  · intro j hj
    obtain ⟨w, e1, _, _, _, e5, _⟩ := hword j (by omega)
    rw [fieldAt, e1, Option.map_some, e5]
  · intro j hj
    obtain ⟨w, e1, _, _, _, _, e6⟩ := hword j (by omega)
    rw [fieldAt, e1, Option.map_some, e6]
  · rw [← validateText_iff H.len4]
    unfold validateText
    rw [H.textBytes_eq, Res.ok_bind, hl, Nat.mul_div_cancel_left _ (by omega)]
    obtain ⟨s, hs⟩ := hs
    rw [← hs, fromUtf8_strBytes]
    rfl

/-! ### Reading accepted messages -/

theorem size_of_formats {b : Buf .ump} (hf : SeqOk ((run b).map fun w => field w 8 2))
    (h : 4 * (run b).length ≤ b.length) : size b = .ok (4 * (run b).length) := by
  have hp : 0 < (run b).length := typedRun_pos (k := 4) (ty := 0xD) (c := 8) hf
  have hseq := ((seqOk_iff _).mp hf).2
  have hw : ∀ j, j < (run b).length → ∃ w, b[4 * j]? = some w ∧
      (U32.crumb w 4).toNat = statusCode (run b).length j := by
    intro j hj
    obtain ⟨w, e1, e2, _⟩ := typedRun_get (k := 4) (ty := 0xD) (by omega) hj
    have e2 : (run b)[j]? = some w := e2
    have := hseq j (field w 8 2) (by rw [List.getElem?_map, e2]; rfl)
    rw [List.length_map] at this
    exact ⟨w, e1, by rw [crumb_field w (i := 4) (by omega)]; exact this⟩
  have htest : ∀ w : BitVec 32, (U32.crumb w 4 == 0#2 || U32.crumb w 4 == 3#2) =
      decide ((U32.crumb w 4).toNat = 0 ∨ (U32.crumb w 4).toNat = 3) := by
    intro w
    generalize U32.crumb w 4 = c
    revert c; decide
  unfold size
  rw [findIdx_heads (q := fun w => U32.crumb w 4 == 0#2 || U32.crumb w 4 == 3#2) hp h]
  · simp only; congr 1; omega
  · intro j hj
    obtain ⟨w, e1, e2⟩ := hw j (by omega)
    refine ⟨w, e1, ?_⟩
    rw [htest, decide_eq_false_iff_not, e2]
    unfold statusCode
    split <;> (try split) <;> (try split) <;> omega
  · obtain ⟨w, e1, e2⟩ := hw ((run b).length - 1) (by omega)
    refine ⟨w, e1, ?_⟩
    rw [htest, decide_eq_true_iff, e2]
    unfold statusCode
    split <;> (try split) <;> (try split) <;> omega

theorem Accepts.backs {t : FlexText} {b : Buf .ump} (A : t.Accepts b) : t.Backs b := by
  have hl := A.len
  refine ⟨A.len, ?_, A.banks 0 (by omega), A.statuses 0 (by omega)⟩
  obtain ⟨w, e1, _, e3⟩ := typedRun_get (k := 4) (ty := 0xD) (by omega) (run_pos A)
  rw [Nat.mul_zero] at e1
  rw [fieldAt, e1, Option.map_some, e3]; rfl

/-- The text of an accepted message. -/
theorem Accepts.text_eq {t : FlexText} {b : Buf .ump} (A : t.Accepts b) :
    ∃ s, FlexText.text b = .ok s ∧ textBytes b = .ok (strBytes s) ∧
      utf8 s = (slots b).dropLast.filter (· ≠ 0) := by
  obtain ⟨s, hs⟩ := A.text
  have hb : textBytes b = .ok (strBytes s) := by
    rw [textBytes_eq b A.len]
    congr 1
    apply map_toNat_inj
    rw [filter_toNat, ← dropLast_slots, ← hs, utf8_eq]
  refine ⟨s, ?_, hb, hs⟩
  unfold FlexText.text
  rw [hb, Res.ok_bind, fromUtf8_strBytes]
  rfl

end FlexText

end Midi2
