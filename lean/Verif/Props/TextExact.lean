import Verif.Lemmas.Strings
import Verif.Lemmas.TextStreamHold
import Verif.Props.Text

/-!
# C29, C31: what the text getters return after any text was set

The round trips of C29 and C31 are for texts without NUL (and, for flex data, of certain
lengths).  Here every string is covered: the value returned or the panic.
-/

namespace Midi2

open FlexText

theorem strBytes_withoutNul (s : String) :
    strBytes (withoutNul s) = (strBytes s).filter (· ≠ 0) := by
  unfold withoutNul
  rw [strBytes_ofList, strBytes_flatMap, filter_flatMap_encB]

theorem toList_split {s : String} {c : Char} (h : s.toList.getLast? = some c) :
    s.toList = s.toList.dropLast ++ [c] := by
  have hne : s.toList ≠ [] := by intro e; rw [e] at h; cases h
  have := List.dropLast_concat_getLast hne
  rw [List.getLast?_eq_some_getLast hne] at h
  rw [← Option.some.inj h]
  exact this.symm

/-- What `from_utf8` makes of a text without its last octet. -/
theorem fromUtf8_cut (s : String) :
    fromUtf8 ((strBytes s).dropLast.filter (· ≠ 0)) =
      match withoutLastOctet s with
      | some u => .ok u
      | none => .err .invalidData := by
  unfold withoutLastOctet
  cases h : s.toList.getLast? with
  | none =>
    have : s.toList = [] := by
      cases hl : s.toList with
      | nil => rfl
      | cons a l => rw [hl] at h; simp at h
    rw [strBytes_flatMap, this]
    exact fromUtf8_strBytes ""
  | some c =>
    have hs := toList_split h
    have hne : encB c ≠ [] := by
      intro e0
      have := congrArg List.length e0
      rw [length_encB, List.length_nil] at this
      have := c.utf8Size_pos
      omega
    have hb : (strBytes s).dropLast = s.toList.dropLast.flatMap encB ++ (encB c).dropLast := by
      rw [strBytes_flatMap, hs, List.flatMap_append, List.flatMap_cons, List.flatMap_nil,
        List.append_nil, List.dropLast_append_of_ne_nil hne, ← hs]
    simp only
    rw [hb, List.filter_append, dropLast_filter_encB, filter_flatMap_encB]
    by_cases hc : c.utf8Size = 1
    · rw [if_pos hc, dropLast_encB hc, List.append_nil, ← strBytes_ofList, fromUtf8_strBytes]
      unfold withoutNul
      rw [String.toList_ofList]
    · rw [if_neg hc]
      rcases fromUtf8_total ((List.filter (· ≠ '\x00') s.toList.dropLast).flatMap encB ++
        (encB c).dropLast) with ⟨u, _, hu⟩ | ⟨he, _⟩
      · exact absurd hu (cut_char _ hc u)
      · exact he

/-- The result of a getter whose value may be missing. -/
def shown : Option String → Res String
  | some u => .ok u
  | none => .panic

theorem text_of_taken {b : Buf .ump} {s : String} {n : Nat} (hn : 0 < n) (hle : (strBytes s).length ≤ n)
    (h : FlexText.textBytes b = .ok (((strBytes s).take (n - 1)).filter (· ≠ 0))) :
    FlexText.text b = shown (if (strBytes s).length = n then withoutLastOctet s
      else some (withoutNul s)) := by
  unfold FlexText.text
  rw [h, Res.ok_bind]
  by_cases hc : (strBytes s).length = n
  · rw [if_pos hc, ← hc, ← List.dropLast_eq_take, fromUtf8_cut]
    cases withoutLastOctet s <;> rfl
  · rw [if_neg hc, List.take_of_length_le (by omega), ← strBytes_withoutNul, fromUtf8_strBytes]
    rfl

/-- C29, over a resizable buffer, for every string and every earlier content: `text()`
returns the text without its NUL characters; when the length in UTF-8 is a positive multiple
of 12 the last octet is lost as well, and `text()` panics if the last character has others. -/
theorem C29_text_exactly (t : FlexText) (b : Buf .ump) (B : t.Backs b) (s : String) :
    ∃ b', FlexText.setText b s = .ok b' ∧
      FlexText.text b' = shown
        (if (utf8 s).length % 12 = 0 ∧ s ≠ "" then withoutLastOctet s else some (withoutNul s)) := by
  obtain ⟨w, e1, _⟩ := backs_word B
  obtain ⟨b', f1, f2, H⟩ := setText_holds B (group_word e1) (channel_word e1) s
  refine ⟨b', f1, ?_⟩
  have hle := le_textPackets (cap := 12) (n := (strBytes s).length) (by omega)
  have hp := H.packets_pos
  have hb := H.textBytes_eq
  rw [f2, Nat.mul_div_cancel_left _ (by omega)] at hb
  rw [text_of_taken (by omega) hle hb, strBytes_length]
  congr 1
  have hiff : (strBytes s).length = 12 * textPackets 12 (strBytes s).length ↔
      (strBytes s).length % 12 = 0 ∧ s ≠ "" := by
    constructor
    · intro h
      refine ⟨by omega, ?_⟩
      intro h0
      subst h0
      have : (strBytes "").length = 0 := rfl
      omega
    · intro ⟨h, h0⟩
      have : (strBytes s).length ≠ 0 := fun e => h0 (length_mod_zero (List.length_eq_zero_iff.mp e))
      unfold textPackets
      rw [if_neg this]
      omega
  by_cases hc : (strBytes s).length % 12 = 0 ∧ s ≠ ""
  · rw [if_pos hc, if_pos (hiff.mpr hc)]
  · rw [if_neg hc, if_neg (fun h => hc (hiff.mp h))]

example : ∃ b', FlexText.setText sampleFlex "abcdefghijkl" = .ok b' ∧
    FlexText.text b' = shown (withoutLastOctet "abcdefghijkl") := by
  obtain ⟨b', h1, h2⟩ := C29_text_exactly ⟨"", 1, 4⟩ sampleFlex
    ⟨by decide, by decide, by decide, by decide⟩ "abcdefghijkl"
  exact ⟨b', h1, by rw [h2, if_pos (by decide)]⟩

theorem withoutNul_iff (s : String) : withoutNul s = s ↔ NulFree s := by
  unfold NulFree
  constructor
  · intro h hm
    have := congrArg String.toList h
    unfold withoutNul at this
    rw [String.toList_ofList] at this
    rw [← this] at hm
    have := (List.mem_filter.mp hm).2
    simp at this
  · intro h
    unfold withoutNul
    rw [List.filter_eq_self.mpr, String.ofList_toList]
    intro c hc
    simp only [ne_eq, decide_eq_true_eq]
    intro e
    exact h (e ▸ hc)

theorem withoutLastOctet_ne {s : String} (h : s ≠ "") : withoutLastOctet s ≠ some s := by
  intro e
  have h1 := fromUtf8_cut s
  rw [e] at h1
  have h2 := congrArg List.length (fromUtf8_ok h1)
  have h3 := List.length_filter_le (fun x : BitVec 8 => decide (x ≠ 0)) (strBytes s).dropLast
  rw [List.length_dropLast] at h3
  have h4 : (strBytes s).length ≠ 0 := fun e => h (length_mod_zero (List.length_eq_zero_iff.mp e))
  omega

theorem shown_ok (x : Option String) (u : String) : shown x = .ok u ↔ x = some u := by
  cases x with
  | none => exact ⟨fun h => (nomatch h), fun h => (nomatch h)⟩
  | some v => exact ⟨fun h => by cases h; rfl, fun h => by cases h; rfl⟩

/-- C29, over a resizable buffer: exactly which texts come back. -/
theorem C29_round_trip_iff (t : FlexText) (b : Buf .ump) (B : t.Backs b) (s : String) :
    ∃ b', FlexText.setText b s = .ok b' ∧
      (FlexText.text b' = .ok s ↔ NulFree s ∧ ((utf8 s).length % 12 ≠ 0 ∨ s = "")) := by
  obtain ⟨b', h1, h2⟩ := C29_text_exactly t b B s
  refine ⟨b', h1, ?_⟩
  rw [h2, shown_ok]
  by_cases hc : (utf8 s).length % 12 = 0 ∧ s ≠ ""
  · rw [if_pos hc]
    refine ⟨fun h => absurd h (withoutLastOctet_ne hc.2), fun h => ?_⟩
    rcases h.2 with h | h
    · exact absurd hc.1 h
    · exact absurd h hc.2
  · rw [if_neg hc, Option.some.injEq, withoutNul_iff]
    refine ⟨fun h => ⟨h, ?_⟩, And.left⟩
    by_cases h0 : s = ""
    · exact .inr h0
    · exact .inl fun e => hc ⟨e, h0⟩

example : ∃ b', FlexText.setText sampleFlex "abcdefghijkl" = .ok b' ∧
    FlexText.text b' ≠ .ok "abcdefghijkl" := by
  obtain ⟨b', h1, h2⟩ := C29_round_trip_iff ⟨"", 1, 4⟩ sampleFlex
    ⟨by decide, by decide, by decide, by decide⟩ "abcdefghijkl"
  exact ⟨b', h1, fun h => absurd (h2.mp h).2 (by decide)⟩

/-- C29, over a buffer of fixed size: the last octet is lost exactly when it is the last of
the buffer. -/
theorem C29_try_text_exactly (t : FlexText) (b : Buf .ump) (B : t.Backs b) (s : String) :
    (b.length < 4 * textPackets 12 (utf8 s).length →
      FlexText.trySetText b s = .err .bufferOverflow) ∧
    (4 * textPackets 12 (utf8 s).length ≤ b.length →
      ∃ b', FlexText.trySetText b s = .ok b' ∧ b'.length = b.length ∧
        FlexText.text b' = shown
          (if (utf8 s).length = 12 * (b.length / 4) then withoutLastOctet s
            else some (withoutNul s))) := by
  rw [strBytes_length]
  refine ⟨trySetText_overflow b s, fun hf => ?_⟩
  obtain ⟨w, e1, _⟩ := backs_word B
  obtain ⟨b', f1, f2, H⟩ := trySetText_holds B (group_word e1) (channel_word e1) s hf
  refine ⟨b', f1, f2, ?_⟩
  have hle := le_textPackets (cap := 12) (n := (strBytes s).length) (by omega)
  have h4 := B.len
  have hb := H.textBytes_eq
  rw [f2] at hb
  exact text_of_taken (by omega) (by omega) hb

example : FlexText.trySetText [0xD5030103, 0, 0, 0] "abcdefghijklm" = .err .bufferOverflow :=
  (C29_try_text_exactly ⟨"", 1, 3⟩ [0xD5030103, 0, 0, 0]
    ⟨by decide, by decide, by decide, by decide⟩ "abcdefghijklm").1 (by decide)

/-- C31, C32: `name()`, `id()` of the stream text messages return the text without its NUL
characters, whatever its length. -/
theorem C31_text_exactly (t : StreamText) (ht : t ∈ StreamText.all) (b : Buf .ump)
    (B : t.Backs b) (s : String) :
    (∃ b', t.setText b s = .ok b' ∧ t.text b' = .ok (withoutNul s)) ∧
    (4 * textPackets t.capacity (utf8 s).length ≤ b.length →
      ∃ b', t.trySetText b s = .ok b' ∧ t.text b' = .ok (withoutNul s)) := by
  have K := StreamText.known_of_mem ht
  have key : ∀ {b' : Buf .ump} {bl : Nat → BitVec 8}, t.Holds b' bl (strBytes s) →
      t.text b' = .ok (withoutNul s) := by
    intro b' bl H
    unfold StreamText.text
    rw [H.textBytes_eq K, ← strBytes_withoutNul, Res.ok_bind, fromUtf8_strBytes]
    rfl
  constructor
  · obtain ⟨b', f1, _, H⟩ := StreamText.setText_holds K B s
    exact ⟨b', f1, key H⟩
  · intro hf
    obtain ⟨b', f1, _, H⟩ := StreamText.trySetText_holds K B s (by
      rw [length_utf8] at hf
      have : t.capacity = 14 - t.offset := by
        rcases ht with _ | ⟨_, _ | ⟨_, _ | ⟨_, h⟩⟩⟩ <;> first | rfl | cases h
      rw [← this]; exact hf)
    exact ⟨b', f1, key H⟩

-- Twelve bytes ending in an ASCII letter, twelve ending in a two-byte character, and a text
-- with NUL characters inside.
example : FlexText.setText sampleFlex "abcdefghijkl" >>= FlexText.text = .ok "abcdefghijk" := by
  decide +kernel
example : FlexText.setText sampleFlex "abcdefghijé" >>= FlexText.text = .panic := by
  decide +kernel
example : FlexText.setText sampleFlex "a\x00b\x00" >>= FlexText.text = .ok "ab" := by
  decide +kernel
example : withoutLastOctet "abcdefghijkl" = some "abcdefghijk" ∧
    withoutLastOctet "abcdefghijé" = none ∧ withoutNul "a\x00b\x00" = "ab" := by decide +kernel

end Midi2
