import Verif.Lemmas.Derived
import Verif.Props.Dispatch
import Verif.Props.Construct

/-!
# C60, C61: what is printed, and when messages are equal
-/

namespace Midi2

/-! ## Debug output -/

/-- C60: the `Debug` text of a message over words is the name of its type and every word of its
buffer in eight hexadecimal digits; over bytes every byte in two. -/
theorem C60_debug_text (name : List Char) (m : Fmt) (b : Buf m) :
    debugText name m b = name ++ "([".toList ++
      commaSeparated (b.map fun v => "0x".toList ++ hexFixed m.hexWidth v.toNat) ++
      "])".toList := by
  cases m with
  | ump =>
    simp only [debugText, debugUnits_eq (k := 8) (n := 32) (by omega) (by omega) (by decide) b]
    rfl
  | bytes =>
    simp only [debugText, debugUnits_eq (k := 2) (n := 8) (by omega) (by omega) (by decide) b]
    rfl

example : String.ofList (debugText "NoteOn".toList .ump [0x40A93C03, 0x80001234]) =
    "NoteOn([0x40A93C03, 0x80001234])" := by decide +kernel
example : String.ofList (debugText "ControlChange".toList .bytes [0xB5, 0x07, 0x00]) =
    "ControlChange([0xB5, 0x07, 0x00])" := by decide +kernel
example : String.ofList (debugText "Sysex7".toList .ump []) = "Sysex7([])" := by
  decide +kernel

theorem name_split {p q r s : List Char} (hp : '(' ∉ p) (hq : '(' ∉ q)
    (h : p ++ '(' :: r = q ++ '(' :: s) : p = q ∧ r = s := by
  induction p generalizing q with
  | nil =>
    cases q with
    | nil => simp at h; exact ⟨rfl, h⟩
    | cons c q =>
      simp only [List.nil_append, List.cons_append, List.cons.injEq] at h
      exact absurd (h.1 ▸ List.mem_cons_self) hq
  | cons c p ih =>
    cases q with
    | nil =>
      simp only [List.nil_append, List.cons_append, List.cons.injEq] at h
      exact absurd (h.1 ▸ List.mem_cons_self) hp
    | cons c' q =>
      simp only [List.cons_append, List.cons.injEq] at h
      obtain ⟨e1, e2⟩ := ih (fun hm => hp (List.mem_cons_of_mem _ hm))
        (fun hm => hq (List.mem_cons_of_mem _ hm)) h.2
      exact ⟨by rw [h.1, e1], e2⟩

/-- C60: nothing is lost in print.  Two texts are the same only if the names of the types (Rust
identifiers, so without parenthesis) and all units are. -/
theorem C60_debug_injective {name name' : List Char} (hn : '(' ∉ name) (hn' : '(' ∉ name')
    (m : Fmt) (b b' : Buf m) :
    debugText name m b = debugText name' m b' ↔ name = name' ∧ b = b' := by
  constructor
  · intro h
    rw [C60_debug_text, C60_debug_text] at h
    simp only [List.append_assoc] at h
    obtain ⟨e1, e2⟩ := name_split hn hn' h
    have e4 := List.append_cancel_right (List.append_cancel_left (as := ['[']) e2)
    have hk : 0 < m.hexWidth := by cases m <;> decide
    have hw : 2 ^ m.w ≤ 16 ^ m.hexWidth := by cases m <;> decide
    have e5 := commaSeparated_inj (k := m.hexWidth + 1)
      (by
        intro t ht
        obtain ⟨v, _, rfl⟩ := List.mem_map.mp ht
        rw [List.length_append, hexFixed_length]
        show 2 + _ = _
        omega)
      (by
        intro t ht
        obtain ⟨v, _, rfl⟩ := List.mem_map.mp ht
        rw [List.length_append, hexFixed_length]
        show 2 + _ = _
        omega) e4
    refine ⟨e1, ?_⟩
    have hlen : b.length = b'.length := by simpa using congrArg List.length e5
    apply List.ext_getElem hlen
    intro i h1 h2
    have e6 := congrArg (fun l : List (List Char) => l[i]?) e5
    simp only [List.getElem?_map, List.getElem?_eq_getElem h1, List.getElem?_eq_getElem h2,
      Option.map_some, Option.some.injEq] at e6
    have e7 := List.append_cancel_left e6
    exact BitVec.eq_of_toNat_eq (hexFixed_inj (Nat.lt_of_lt_of_le b[i].isLt hw)
      (Nat.lt_of_lt_of_le b'[i].isLt hw) e7)
  · rintro ⟨rfl, rfl⟩
    rfl

/-- Two messages of different types, with the same words. -/
example : debugText "NoteOn".toList .ump [0x40A93C03, 0x80001234] ≠
    debugText "ChannelVoice2".toList .ump [0x40A93C03, 0x80001234] :=
  fun h => absurd ((C60_debug_injective (by decide) (by decide) .ump _ _).mp h).1 (by decide)

/-- C60: messages of one type are equal exactly if they print alike. -/
theorem C60_debug_equality {name : List Char} (hn : '(' ∉ name) (m : Fmt) (b b' : Buf m) :
    messageEq b b' = true ↔ debugText name m b = debugText name m b' := by
  rw [C60_debug_injective hn hn]
  simp [messageEq]

example : debugText "NoteOn".toList .ump [0x40A93C03, 0x80001234] ≠
    debugText "NoteOn".toList .ump [0x40A93C03, 0x80001235] :=
  fun h => absurd ((C60_debug_equality (by decide) .ump _ _).mpr h) (by decide)

/-! ### Aggregates -/

theorem debugText_units (name : List Char) (m : Fmt) (b : Buf m) :
    debugText name m b = unitsText name m b := by
  rw [C60_debug_text]
  simp [unitsText, parenthesised]

theorem parenthesised_inj {p q r s : List Char} (hp : '(' ∉ p) (hq : '(' ∉ q) :
    parenthesised p r = parenthesised q s ↔ p = q ∧ r = s := by
  constructor
  · intro h
    simp only [parenthesised, List.append_assoc] at h
    obtain ⟨e1, e2⟩ := name_split hp hq h
    exact ⟨e1, List.append_cancel_right e2⟩
  · rintro ⟨rfl, rfl⟩; rfl

theorem names_table : umpTable.all (fun x =>
    x.1.groupName == umpGroupName x.2.type && !x.1.groupName.contains '(' &&
    !x.1.typeName.contains '(' &&
    ((match x.1 with | .sysex _ => true | _ => false) ==
      (decide (x.2.type = 3) || decide (x.2.type = 5)))) = true := by
  decide +kernel

theorem names_known : umpTable.all (fun x => umpTypeNames.any fun y =>
    decide (y.1 = x.2.type) && decide (y.2.1 = x.2.code) && (y.2.2.toList == x.1.typeName)) = true := by
  decide +kernel

theorem names_unique : umpTable.all (fun x => umpTable.all fun y =>
    !(x.1.groupName == y.1.groupName && x.1.typeName == y.1.typeName) || x.1 == y.1) = true := by
  decide +kernel

theorem names_of {k : UmpKind} {h : Header} (he : (k, h) ∈ umpTable) :
    k.groupName = umpGroupName h.type ∧ '(' ∉ k.groupName ∧ '(' ∉ k.typeName ∧
    ((∃ s, k = .sysex s) ↔ h.type = 3 ∨ h.type = 5) := by
  have := List.all_eq_true.mp names_table _ he
  simp only [Bool.and_eq_true, beq_iff_eq, Bool.not_eq_true', List.contains_eq_mem,
    decide_eq_false_iff_not] at this
  obtain ⟨⟨⟨h1, h2⟩, h3⟩, h4⟩ := this
  refine ⟨h1, h2, h3, ?_⟩
  rw [← decide_eq_true_iff (p := h.type = 3), ← decide_eq_true_iff (p := h.type = 5),
    ← Bool.or_eq_true, ← h4]
  cases k <;> simp

theorem ump_debug {k : UmpKind} {h : Header} (he : (k, h) ∈ umpTable) (b : Buf .ump) :
    UmpMessage.debug (k, b) = parenthesised (umpGroupName h.type)
      (if h.type = 3 ∨ h.type = 5 then unitsText k.typeName .ump b
       else parenthesised k.typeName (unitsText k.typeName .ump b)) := by
  obtain ⟨h1, _, _, h4⟩ := names_of he
  rw [← h1]
  by_cases hs : h.type = 3 ∨ h.type = 5
  · rw [if_pos hs]
    obtain ⟨s, rfl⟩ := h4.mpr hs
    simp only [UmpMessage.debug, debugText_units]
    rfl
  · rw [if_neg hs]
    have hn : ∀ s, k ≠ .sysex s := fun s hk => hs (h4.mp ⟨s, hk⟩)
    cases k with
    | sysex s => exact absurd rfl (hn s)
    | _ => simp only [UmpMessage.debug, UmpKind.debugInner, debugText_units]; rfl

/-- C60: no two names are for messages of the same header. -/
theorem C60_names_once : (umpTypeNames.map fun x => (x.1, x.2.1)).Nodup := by decide +kernel

/-- C60: an `UmpMessage` prints as the variant for its message type in the UMP standard, within
it the variant of the inner aggregate if there is one, and within that the message. -/
theorem C60_ump_message_text {k : UmpKind} {h : Header} (he : (k, h) ∈ umpTable) (b : Buf .ump) :
    ∃ name, (h.type, h.code, name) ∈ umpTypeNames ∧
      UmpMessage.debug (k, b) = parenthesised (umpGroupName h.type)
        (if h.type = 3 ∨ h.type = 5 then unitsText name.toList .ump b
         else parenthesised name.toList (unitsText name.toList .ump b)) := by
  obtain ⟨⟨t, c, name⟩, hm, hk⟩ := List.any_eq_true.mp (List.all_eq_true.mp names_known _ he)
  simp only [Bool.and_eq_true, decide_eq_true_eq, beq_iff_eq] at hk
  obtain ⟨⟨rfl, rfl⟩, hk⟩ := hk
  exact ⟨name, hm, hk ▸ ump_debug he b⟩

example : String.ofList (UmpMessage.debug (.fixed Msg.cv2NoteOn, [0x40A93C03, 0x80001234])) =
    "ChannelVoice2(NoteOn(NoteOn([0x40A93C03, 0x80001234])))" := by decide +kernel
example : String.ofList (UmpMessage.debug (.sysex .s7, [0x30020102, 0])) =
    "Sysex7(Sysex7([0x30020102, 0x00000000]))" := by decide +kernel
example : String.ofList (UmpMessage.debug
    (.flexText ⟨"ProjectName", 0x1, 0x1⟩, [0xD0100101, 0x41000000, 0, 0])) =
    "FlexData(ProjectName(ProjectName([0xD0100101, 0x41000000, 0x00000000, 0x00000000])))" := by
  decide +kernel

theorem unitsText_inj {name name' : List Char} (hn : '(' ∉ name) (hn' : '(' ∉ name') (m : Fmt)
    (b b' : Buf m) : unitsText name m b = unitsText name' m b' ↔ name = name' ∧ b = b' := by
  rw [← debugText_units, ← debugText_units, C60_debug_injective hn hn']

/-- C60: two values of `UmpMessage` print alike only if they are of the same type and hold the
same words. -/
theorem C60_ump_message_injective {k k' : UmpKind} {h h' : Header} (he : (k, h) ∈ umpTable)
    (he' : (k', h') ∈ umpTable) (b b' : Buf .ump) :
    UmpMessage.debug (k, b) = UmpMessage.debug (k', b') ↔ k = k' ∧ b = b' := by
  constructor
  · intro hd
    obtain ⟨g1, g2, g3, _⟩ := names_of he
    obtain ⟨g1', g2', g3', _⟩ := names_of he'
    rw [ump_debug he, ump_debug he', ← g1, ← g1',
      parenthesised_inj g2 g2'] at hd
    have hu : ∀ (x y : UmpKind × Header), x ∈ umpTable → y ∈ umpTable →
        x.1.groupName = y.1.groupName → x.1.typeName = y.1.typeName → x.1 = y.1 := by
      intro x y hx hy e1 e2
      have := List.all_eq_true.mp (List.all_eq_true.mp names_unique x hx) y hy
      simpa [e1, e2] using this
    have ht : (h.type = 3 ∨ h.type = 5) ↔ (h'.type = 3 ∨ h'.type = 5) := by
      have hall : umpTable.all (fun x => umpTable.all fun y =>
          !(x.1.groupName == y.1.groupName) || (decide (x.2.type = 3 ∨ x.2.type = 5) ==
            decide (y.2.type = 3 ∨ y.2.type = 5))) = true := by decide +kernel
      have := List.all_eq_true.mp (List.all_eq_true.mp hall _ he) _ he'
      rw [hd.1] at this
      have e : decide (h.type = 3 ∨ h.type = 5) = decide (h'.type = 3 ∨ h'.type = 5) := by
        simpa using this
      exact decide_eq_decide.mp e
    obtain ⟨hg, hi⟩ := hd
    by_cases hs : h.type = 3 ∨ h.type = 5
    · rw [if_pos hs, if_pos (ht.mp hs), unitsText_inj g3 g3'] at hi
      exact ⟨hu _ _ he he' hg hi.1, hi.2⟩
    · rw [if_neg hs, if_neg (fun q => hs (ht.mpr q)), parenthesised_inj g3 g3',
        unitsText_inj g3 g3'] at hi
      exact ⟨hu _ _ he he' hg hi.1, hi.2.2⟩
  · rintro ⟨rfl, rfl⟩; rfl

example : UmpMessage.debug (.sysex .s7, [0x30020102, 0]) ≠
    UmpMessage.debug (.sysex .s8, [0x30020102, 0]) :=
  fun h => absurd ((C60_ump_message_injective (h := ⟨3, 8, 0, 0⟩) (h' := ⟨5, 8, 0, 0⟩)
    (by decide +kernel) (by decide +kernel) _ _).mp h).1 (by decide)

/-- C60: accepted messages are equal as values of `UmpMessage` exactly if they print alike. -/
theorem C60_ump_message_equality {k k' : UmpKind} {h h' : Header} (he : (k, h) ∈ umpTable)
    (he' : (k', h') ∈ umpTable) (b b' : Buf .ump) :
    aggregateEq (k, b) (k', b') = true ↔ UmpMessage.debug (k, b) = UmpMessage.debug (k', b') := by
  rw [C60_ump_message_injective he he']
  simp [aggregateEq, messageEq]

example : aggregateEq (UmpKind.fixed Msg.cv2NoteOn, ([0x40A93C03, 0x80001234] : Buf .ump))
      (UmpKind.fixed Msg.cv2NoteOn, [0x40A93C03, 0x80001234]) = true :=
  (C60_ump_message_equality (h := ⟨4, 8, 4, 9⟩) (h' := ⟨4, 8, 4, 9⟩) (by decide +kernel)
    (by decide +kernel) _ _).mpr rfl

theorem bytes_names : bytesTable.all (fun x => match x.1 with
    | .sysex7 => decide (x.2.1 = 0xF0)
    | .fixed d => decide (x.2.1 ≠ 0xF0) && (d.typeName == bytesTypeName x.2.1) &&
      (UmpKind.groupName (.fixed d) ==
        if x.2.1 < 0xF0 then "ChannelVoice1".toList else "SystemCommon".toList) &&
      !(UmpKind.groupName (.fixed d)).contains '(' && !d.typeName.contains '(' &&
      !(UmpKind.groupName (.fixed d) == "Sysex7".toList)) = true := by
  decide +kernel

theorem bytes_names_unique : bytesTable.all (fun x => bytesTable.all fun y => match x.1, y.1 with
    | .fixed d, .fixed d' => !(d.typeName == d'.typeName) || d == d'
    | _, _ => true) = true := by
  decide +kernel

/-- C60: a `BytesMessage` prints as the variant for its status byte, within it the variant of the
inner aggregate if there is one, and within that the message. -/
theorem C60_bytes_message_text :
    (∀ b, BytesMessage.debug (.sysex7, b) =
      parenthesised "Sysex7".toList (unitsText "Sysex7".toList .bytes b)) ∧
    (∀ d lo hi, (.fixed d, lo, hi) ∈ bytesTable → ∀ b, BytesMessage.debug (.fixed d, b) =
      parenthesised (if lo < 0xF0 then "ChannelVoice1".toList else "SystemCommon".toList)
        (parenthesised (bytesTypeName lo) (unitsText (bytesTypeName lo) .bytes b))) := by
  refine ⟨fun b => ?_, fun d lo hi he b => ?_⟩
  · simp only [BytesMessage.debug, debugText_units]; rfl
  · have := List.all_eq_true.mp bytes_names _ he
    simp only [Bool.and_eq_true, beq_iff_eq] at this
    rw [← this.1.1.1.2, ← this.1.1.1.1.2]
    simp only [BytesMessage.debug, debugText_units]; rfl

/-- C60: two values of `BytesMessage` print alike only if they are of the same type and hold the
same bytes. -/
theorem C60_bytes_message_injective {k k' : BytesKind} {r r' : Nat × Nat}
    (he : (k, r) ∈ bytesTable) (he' : (k', r') ∈ bytesTable) (b b' : Buf .bytes) :
    BytesMessage.debug (k, b) = BytesMessage.debug (k', b') ↔ k = k' ∧ b = b' := by
  constructor
  · intro hd
    have h1 := List.all_eq_true.mp bytes_names _ he
    have h2 := List.all_eq_true.mp bytes_names _ he'
    have h3 := List.all_eq_true.mp (List.all_eq_true.mp bytes_names_unique _ he) _ he'
    cases k with
    | sysex7 =>
      cases k' with
      | sysex7 =>
        simp only [BytesMessage.debug, debugText_units] at hd
        have := (parenthesised_inj (by decide) (by decide)).mp hd
        exact ⟨rfl, ((unitsText_inj (by decide) (by decide) _ _ _).mp this.2).2⟩
      | fixed d =>
        simp only [Bool.and_eq_true, Bool.not_eq_true', List.contains_eq_mem,
          decide_eq_false_iff_not, beq_eq_false_iff_ne] at h2
        simp only [BytesMessage.debug] at hd
        have := (parenthesised_inj (by decide) h2.1.1.2).mp hd
        exact absurd this.1.symm h2.2
    | fixed d =>
      simp only [Bool.and_eq_true, Bool.not_eq_true', List.contains_eq_mem,
        decide_eq_false_iff_not, beq_eq_false_iff_ne] at h1
      cases k' with
      | sysex7 =>
        simp only [BytesMessage.debug] at hd
        have := (parenthesised_inj h1.1.1.2 (by decide)).mp hd
        exact absurd this.1 h1.2
      | fixed d' =>
        simp only [Bool.and_eq_true, Bool.not_eq_true', List.contains_eq_mem,
          decide_eq_false_iff_not, beq_eq_false_iff_ne] at h2
        simp only [BytesMessage.debug, debugText_units] at hd
        have e1 := (parenthesised_inj h1.1.1.2 h2.1.1.2).mp hd
        have e2 := (parenthesised_inj h1.1.2 h2.1.2).mp e1.2
        have e3 := (unitsText_inj h1.1.2 h2.1.2 _ _ _).mp e2.2
        refine ⟨?_, e3.2⟩
        have : d = d' := by simpa [e3.1] using h3
        rw [this]
  · rintro ⟨rfl, rfl⟩; rfl

example : String.ofList (BytesMessage.debug (.fixed Msg.cv1NoteOn, [0x9A, 0x3C, 0x40])) =
    "ChannelVoice1(NoteOn(NoteOn([0x9A, 0x3C, 0x40])))" := by decide +kernel

/-- C60: a `Packet` prints as the variant for its message type and the words in it; two packets
print alike only if they are equal. -/
theorem C60_packet_text (p q : Packet) :
    Packet.debug p = parenthesised p.1.variantName (unitsText "Packet".toList .ump p.2) ∧
    (∀ t, (t, p.1) ∈ Packet.arms → p.1.variantName = umpGroupName t) ∧
    (Packet.debug p = Packet.debug q ↔ p = q) := by
  have hd : ∀ p : Packet, Packet.debug p =
      parenthesised p.1.variantName (unitsText "Packet".toList .ump p.2) := by
    intro p
    unfold Packet.debug
    rw [debugText_units]; rfl
  have hn : ∀ k : PacketKind, '(' ∉ k.variantName := by intro k; cases k <;> decide
  refine ⟨hd p, ?_, ?_⟩
  · have : Packet.arms.all (fun x => x.2.variantName == umpGroupName x.1) = true := by
      decide +kernel
    intro t ht
    simpa using List.all_eq_true.mp this _ ht
  · constructor
    · intro h
      rw [hd, hd, parenthesised_inj (hn _) (hn _), unitsText_inj (by decide) (by decide)] at h
      obtain ⟨h1, _, h2⟩ := h
      refine Prod.ext ?_ h2
      revert h1
      generalize p.1 = a
      generalize q.1 = c
      cases a <;> cases c <;> first | (intro _; rfl) | (intro h; exact absurd h (by decide))
    · rintro rfl; rfl

example : String.ofList (Packet.debug (.sysex8, [0x50010000, 0, 0, 0])) =
    "Sysex8(Packet([0x50010000, 0x00000000, 0x00000000, 0x00000000]))" := by decide +kernel

/-! ## Equality -/

/-- C61 (UMP): take any message on which writing back a property changes nothing (every newly
made one, see `C61_new_ump_partial`; for parsed ones see C56), and two histories of setter calls
from there.  The results are equal exactly if every getter returns the same for both.  Partial:
no history may leave the note attribute cleared by its setter
(`C56_stale_attribute_violation`). -/
theorem C61_ump_partial {d : MsgDesc} (hd : d ∈ Msg.all) (b : Buf .ump)
    (hb : d.umpSize ≤ b.length)
    (hset : ∀ n f, (n, f) ∈ d.props → f.accessible .ump = true →
      ∃ v, f.read .ump b = .ok v ∧ f.faithful v = true ∧ f.write .ump b v = .ok b)
    {cs cs' : List SetCall} (hc : ∀ c ∈ cs, c.legal d .ump) (hc' : ∀ c ∈ cs', c.legal d .ump)
    (hna : ∀ n c, lastSet cs n = some c → c.clearsAttribute = false)
    (hna' : ∀ n c, lastSet cs' n = some c → c.clearsAttribute = false) :
    ∃ x y, runSetters .ump cs b = .ok x ∧ runSetters .ump cs' b = .ok y ∧
      (messageEq x y = true ↔ ∀ n f, (n, f) ∈ d.props → f.accessible .ump = true →
        f.read .ump x = f.read .ump y) := by
  have hn := of_decide_eq_true (List.all_eq_true.mp table_names d hd)
  have hg := good_ump hd hb
  obtain ⟨x, ex, _⟩ := setter_history hn cs hg hc
  obtain ⟨y, ey, _⟩ := setter_history hn cs' hg hc'
  refine ⟨x, y, ex, ey, ?_⟩
  simp only [messageEq, beq_iff_eq]
  constructor
  · rintro rfl
    exact fun _ _ _ _ => rfl
  · exact history_same_values hn hg
      (fun _ h1 h2 _ _ _ _ l1 l2 w1 w2 =>
        write_sameOn_ump hd h1 h2 (by rw [l1]; exact hb) (l1.trans l2.symm) w1 w2)
      hset hc hc' hna hna' ex ey

/-- C61 (UMP): messages made by `new` and setters are equal exactly if every getter returns the
same for both.  Partial as `C61_ump_partial`; and a type that cannot be made by `new` is excluded
(C08). -/
theorem C61_new_ump_partial {d : MsgDesc} (hd : d ∈ Msg.all) {b : Buf .ump}
    (hb : d.newVec .ump = .ok b)
    {cs cs' : List SetCall} (hc : ∀ c ∈ cs, c.legal d .ump) (hc' : ∀ c ∈ cs', c.legal d .ump)
    (hna : ∀ n c, lastSet cs n = some c → c.clearsAttribute = false)
    (hna' : ∀ n c, lastSet cs' n = some c → c.clearsAttribute = false) :
    ∃ x y, runSetters .ump cs b = .ok x ∧ runSetters .ump cs' b = .ok y ∧
      (messageEq x y = true ↔ ∀ n f, (n, f) ∈ d.props → f.accessible .ump = true →
        f.read .ump x = f.read .ump y) := by
  refine C61_ump_partial hd b ?_ (settledNew_spec (List.all_eq_true.mp table_settled_ump d hd) hb)
    hc hc' hna hna'
  have : ∀ d ∈ Msg.all, ∀ b, d.newVec .ump = .ok b → d.umpSize ≤ b.length := by
    have h : Msg.all.all (fun d => match d.newVec .ump with
        | .ok b => decide (d.umpSize ≤ b.length)
        | _ => true) = true := by decide +kernel
    intro d hd b hb
    have := List.all_eq_true.mp h d hd
    rw [hb] at this
    exact of_decide_eq_true this
  exact this d hd b hb

/-- C61 (bytes): as for words; the note attribute does not exist there.  (`new` of
`SongPositionPointer` panics, see C08.) -/
theorem C61_new_bytes {d : MsgDesc} (hd : d ∈ Msg.hybridAll) {b : Buf .bytes}
    (hb : d.newVec .bytes = .ok b)
    {cs cs' : List SetCall} (hc : ∀ c ∈ cs, c.legal d .bytes)
    (hc' : ∀ c ∈ cs', c.legal d .bytes) :
    ∃ x y, runSetters .bytes cs b = .ok x ∧ runSetters .bytes cs' b = .ok y ∧
      (messageEq x y = true ↔ ∀ n f, (n, f) ∈ d.props → f.accessible .bytes = true →
        f.read .bytes x = f.read .bytes y) := by
  have hn := of_decide_eq_true (List.all_eq_true.mp table_names d (hybrid_sub_all hd))
  have hlen : d.minSize .bytes ≤ b.length := by
    have h : Msg.hybridAll.all (fun d => match d.newVec .bytes with
        | .ok b => decide (d.minSize .bytes ≤ b.length)
        | _ => true) = true := by decide +kernel
    have := List.all_eq_true.mp h d hd
    rw [hb] at this
    exact of_decide_eq_true this
  have hspp : d.name ≠ "system_common::SongPositionPointer" := by
    intro h
    have := (show ∀ d ∈ Msg.hybridAll, d.name = "system_common::SongPositionPointer" →
      d.newVec .bytes = .panic by decide +kernel) d hd h
    rw [this] at hb; cases hb
  have hg := good_bytes hd hlen fun h => absurd h hspp
  have hnoatt : ∀ cs : List SetCall, (∀ c ∈ cs, c.legal d .bytes) → ∀ n c, lastSet cs n = some c →
      c.clearsAttribute = false := by
    intro cs hc n c h
    have hdual := List.all_eq_true.mp (List.all_eq_true.mp table_dual d hd) _
      (hc c (lastSet_split h).1).1
    obtain ⟨n, f, v⟩ := c
    cases f <;> first | rfl | cases hdual
  obtain ⟨x, ex, _⟩ := setter_history hn cs hg hc
  obtain ⟨y, ey, _⟩ := setter_history hn cs' hg hc'
  refine ⟨x, y, ex, ey, ?_⟩
  simp only [messageEq, beq_iff_eq]
  constructor
  · rintro rfl
    exact fun _ _ _ _ => rfl
  · refine history_same_values hn hg (fun c h1 _ _ _ _ _ l1 l2 w1 w2 => ?_)
      (settledNew_spec (List.all_eq_true.mp table_settled_bytes d hd) hb) hc hc'
      (hnoatt cs hc) (hnoatt cs' hc') ex ey
    obtain ⟨_, size, hfit, hsz⟩ := hg
    exact write_sameOn_bytes hd h1 (MsgDesc.fits_mem hfit h1.1) (by rw [l1]; exact hsz)
      (l1.trans l2.symm) w1 w2

/-- A program change whose bank was set and dropped again equals one that only got its program
number. -/
example :
    let bank (v : Option (BitVec 14)) : SetCall := ⟨"bank", .programBank, v⟩
    let prog (v : BitVec 7) : SetCall := ⟨"program", .schema .u7 ⟨0, 0x7F000000, 0, 0⟩, v⟩
    let cs := [bank (some 0x3FFF), prog 3, bank none, prog 9]
    let cs' := [prog 9]
    Msg.cv2ProgramChange ∈ Msg.all ∧ (∃ b, Msg.cv2ProgramChange.newVec .ump = .ok b) ∧
    (∀ c ∈ cs, c.legal Msg.cv2ProgramChange .ump) ∧ (∀ c ∈ cs', c.legal Msg.cv2ProgramChange .ump) ∧
    (∀ n c, lastSet cs n = some c → c.clearsAttribute = false) ∧
    (∀ n c, lastSet cs' n = some c → c.clearsAttribute = false) ∧
    ∃ x, (Msg.cv2ProgramChange.newVec .ump >>= runSetters .ump cs) = .ok x ∧
      (Msg.cv2ProgramChange.newVec .ump >>= runSetters .ump cs') = .ok x := by
  intro bank prog cs cs'
  refine ⟨by simp [Msg.all, Msg.cv2All], ⟨_, rfl⟩, ?_, ?_, ?_, ?_, [0x40C00000, 0x09000000],
    by simp only [cs, bank, prog]; decide +kernel, by simp only [cs', prog]; decide +kernel⟩
  · intro c hc
    simp only [cs, List.mem_cons, List.not_mem_nil, or_false] at hc
    rcases hc with rfl | rfl | rfl | rfl <;>
      exact ⟨by simp [Msg.cv2ProgramChange, bank, prog], by decide, rfl⟩
  · intro c hc
    simp only [cs', List.mem_cons, List.not_mem_nil, or_false] at hc
    rcases hc with rfl
    exact ⟨by simp [Msg.cv2ProgramChange, prog], by decide, rfl⟩
  · intro n c h
    have := (lastSet_split h).1
    simp only [cs, List.mem_cons, List.not_mem_nil, or_false] at this
    rcases this with rfl | rfl | rfl | rfl <;> rfl
  · intro n c h
    have := (lastSet_split h).1
    simp only [cs', List.mem_cons, List.not_mem_nil, or_false] at this
    rcases this with rfl
    rfl

/-- C61: two values of `UmpMessage` that hold accepted messages are equal exactly if their words
are: the variant adds nothing. -/
theorem C61_ump_message {k k' : UmpKind} {h h' : Header} (he : (k, h) ∈ umpTable)
    (he' : (k', h') ∈ umpTable) (b b' : Buf .ump) (hk : k.tryFrom b = .ok b)
    (hk' : k'.tryFrom b' = .ok b') : aggregateEq (k, b) (k', b') = true ↔ b = b' := by
  simp only [aggregateEq, messageEq, Bool.and_eq_true, beq_iff_eq]
  refine ⟨fun h => h.2, ?_⟩
  rintro rfl
  exact ⟨C10_ump_unique he he' b hk hk', rfl⟩

example : aggregateEq (UmpKind.fixed Msg.cv2NoteOn, ([0x40903C03, 0x80001234] : Buf .ump))
      (UmpKind.fixed Msg.cv2NoteOff, [0x40803C03, 0x80001234]) = false := by
  have := C61_ump_message (h := ⟨4, 8, 4, 9⟩) (h' := ⟨4, 8, 4, 8⟩) (k := .fixed Msg.cv2NoteOn)
    (k' := .fixed Msg.cv2NoteOff) (by decide +kernel) (by decide +kernel)
    [0x40903C03, 0x80001234] [0x40803C03, 0x80001234] (by decide +kernel) (by decide +kernel)
  exact Bool.eq_false_iff.mpr fun h => absurd (this.mp h) (by decide)

/-- C61, negation for parsed messages: two note-ons with the same words in `data()` and the same
value in every property compare as different, because one was parsed from a slice with another
message behind it. -/
theorem C61_trailing_words_violation :
    ∃ b b' : Buf .ump, Msg.cv2NoteOn.tryFrom .ump b = .ok b ∧ Msg.cv2NoteOn.tryFrom .ump b' = .ok b' ∧
      Msg.cv2NoteOn.data .ump b = Msg.cv2NoteOn.data .ump b' ∧
      (∀ n f, (n, f) ∈ Msg.cv2NoteOn.props → f.read .ump b = f.read .ump b') ∧
      messageEq b b' = false ∧
      debugText "NoteOn".toList .ump b ≠ debugText "NoteOn".toList .ump b' := by
  refine ⟨[0x40903C00, 0x80000000], [0x40903C00, 0x80000000, 0x20904020], by rfl, by rfl, by rfl, ?_,
    by decide, by decide +kernel⟩
  intro n f h
  simp only [Msg.cv2NoteOn, List.mem_cons, List.not_mem_nil, or_false, Prod.mk.injEq] at h
  rcases h with h | h | h | h | h | h | h <;> obtain ⟨_, rfl⟩ := h <;> rfl

/-- C61, negation for parsed messages: the same values and the same length, but a reserved bit is
set in one of them. -/
theorem C61_reserved_bits_violation :
    ∃ b b' : Buf .ump, Msg.cv2NoteOn.tryFrom .ump b = .ok b ∧ Msg.cv2NoteOn.tryFrom .ump b' = .ok b' ∧
      b.length = b'.length ∧
      (∀ n f, (n, f) ∈ Msg.cv2NoteOn.props → f.read .ump b = f.read .ump b') ∧
      messageEq b b' = false := by
  refine ⟨[0x40903C00, 0x80000000], [0x4090BC00, 0x80000000], by rfl, by rfl, by rfl, ?_, by decide⟩
  intro n f h
  simp only [Msg.cv2NoteOn, List.mem_cons, List.not_mem_nil, or_false, Prod.mk.injEq] at h
  rcases h with h | h | h | h | h | h | h <;> obtain ⟨_, rfl⟩ := h <;> rfl

end Midi2
