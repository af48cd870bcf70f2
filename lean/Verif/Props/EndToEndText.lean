import Verif.Props.EndToEnd
import Verif.Props.TextHistory

/-!
# C54 for texts in arrays

The calls may fail for want of room; a call that does changes nothing.
-/

namespace Midi2

theorem slice_front {b d : Buf .ump} {n : Res Nat} (h : (n >>= fun n => sliceTo b n) = .ok d) (h0 : d ≠ []) :
    d[0]? = b[0]? := by
  obtain ⟨n, -, h⟩ := bind_inv h
  unfold sliceTo at h
  split at h
  · cases h
    cases n with
    | zero => exact absurd rfl h0
    | succ n => exact List.getElem?_take_of_lt (by omega)
  · cases h

theorem at_front {b d : Buf .ump} (h : d[0]? = b[0]?) : at' d 0 = at' b 0 := by
  unfold at'; rw [h]

theorem textWire_length {header : Nat → List Nat} {h cap : Nat} (hh : ∀ j, (header j).length = h)
    (text : List Nat) :
    (textWire header cap text).length = (h + cap) * textPackets cap text.length := by
  unfold textWire
  generalize textPackets cap text.length = n
  induction n with
  | zero => rfl
  | succ n ih =>
    rw [List.range_succ, List.flatMap_append, List.length_append, ih, List.flatMap_cons, List.flatMap_nil,
      List.append_nil, List.length_append, List.length_append, hh, List.length_replicate, Nat.mul_succ]
    have : ((text.drop (cap * n)).take cap).length ≤ cap := List.length_take_le _ _
    omega

theorem octets_length (d : List (BitVec 32)) : (octets d).length = 4 * d.length := by
  rw [octets, List.length_map, List.length_range]

theorem packets_ne (cap n : Nat) (hc : 0 < cap) : 0 < textPackets cap n := by
  unfold textPackets
  split
  · exact Nat.one_pos
  · exact Nat.div_pos (by omega) hc

/-- C54, flex data text in an array, exactly: `new()` in an array of `n` words, any calls of
`try_set_text`, `set_group` and `set_optional_channel`, at least one text among those which fit.
What `data()` gives is accepted by `UmpMessage::try_from` as a message of the type unless the text
fills its packets and is not UTF-8 without its last octet; it has the group and channel set last and
reads as the last text that did fit, without NUL characters, and without the last octet if it
fills its packets (`readBack`). -/
theorem C54_flex_text_array_exactly {t : FlexText} {h : Header} (ht : (UmpKind.flexText t, h) ∈ umpTable)
    (hm : UmpKind.flexText t ∉ misfiled) (n : Nat) (hn : 4 ≤ n) (os done : List FlexText.Op)
    (hd : done = os.filter (FlexText.Op.Fits (some n))) (hs : ∃ s, .setText s ∈ done)
    (st : FlexText.State) (hst : st = done.foldl FlexText.State.step .start) :
    ∃ b x, (t.newArray n >>= FlexText.Op.execAll true os) =
        .ok (b, os.map (FlexText.Op.report (some n))) ∧ b.length = n ∧
      FlexText.data b = .ok x ∧ x.length = 4 * textPackets 12 (utf8 st.text).length ∧
      (UmpMessage.tryFrom x = .ok (.flexText t, x) ↔ FlexText.readBack (x.length / 4) st.text ≠ none) ∧
      FlexText.group x = .ok st.group ∧ FlexText.channel x = .ok (st.channels 0) ∧
      FlexText.text x = shown (FlexText.readBack (x.length / 4) st.text) := by
  obtain ⟨b0, n1, n2, H0⟩ := FlexText.init_zeros t hn
  have e0 : t.newArray n = .ok b0 := by
    unfold FlexText.newArray; rw [if_neg (by omega)]; exact n1
  obtain ⟨b, h1, -, h3, h4, h5, -, h7⟩ := C73_flex_text_exactly true t b0 H0.backs 0 none H0.group_eq
    H0.channel_eq os (some n) (by rw [n2]; rfl) done hd st hst
  obtain ⟨-, x, x1, -, x3, x4, x5⟩ := h7 hs
  have hlen : x.length = 4 * textPackets 12 (utf8 st.text).length := by
    have := congrArg List.length x3
    rw [octets_length, textWire_length (h := 4) (fun _ => rfl)] at this
    omega
  have hf := at_front (slice_front x1 (by
    intro e
    rw [e] at hlen
    have := packets_ne 12 (utf8 st.text).length (by decide)
    rw [List.length_nil] at hlen; omega))
  refine ⟨b, x, by rw [e0]; exact h1, (h5 rfl).trans n2, x1, hlen, ?_, ?_, ?_, x4⟩
  · rw [← x5]
    exact C10_ump_dispatch_partial ht hm x (fun e => nomatch e)
  · rw [← h3]; unfold FlexText.group; rw [hf]
  · rw [← h4]; unfold FlexText.channel; rw [hf]

-- A text of two packets in nine words, then one of three, which does not fit.
example : ∃ b x, (FlexText.newArray ⟨"Lyrics", 2, 1⟩ 9 >>= FlexText.Op.execAll true
      [.setChannel (some 9), .setText "abcdefghijklm", .setGroup 3,
        .setText "abcdefghijklmnopqrstuvwxyz"]) = .ok (b, [none, none, none, some .bufferOverflow]) ∧
    FlexText.data b = .ok x ∧ x.length = 8 ∧
    UmpMessage.tryFrom x = .ok (.flexText ⟨"Lyrics", 2, 1⟩, x) ∧
    FlexText.group x = .ok 3 ∧ FlexText.channel x = .ok (some 9) ∧
    FlexText.text x = .ok "abcdefghijklm" := by
  obtain ⟨b, x, h1, -, h3, h4, h5, h6, h7, h8⟩ := C54_flex_text_array_exactly (t := ⟨"Lyrics", 2, 1⟩)
    (h := ⟨13, 16, 16, 0x0201⟩) (by decide +kernel) (by decide +kernel) 9 (by decide)
    [.setChannel (some 9), .setText "abcdefghijklm", .setGroup 3,
      .setText "abcdefghijklmnopqrstuvwxyz"]
    [.setChannel (some 9), .setText "abcdefghijklm", .setGroup 3]
    rfl ⟨"abcdefghijklm", by simp⟩ _ rfl
  have h4 : x.length = 8 := h4
  refine ⟨b, x, h1, h3, h4, h5.mpr ?_, h6, h7, h8.trans ?_⟩ <;> rw [h4] <;> decide +kernel

theorem fresh_numbers {t : StreamText} (K : t.Known) {n : Nat} (hn : 4 ≤ n) :
    ∃ b, t.newArray n = .ok b ∧ b.length = n ∧ t.Backs b ∧
      StreamText.numbersOf b = ⟨n / 4, fun _ => 0⟩ := by
  have h0 : (List.replicate n (0 : BitVec 32))[0]? = some 0 := by
    rw [List.getElem?_replicate, if_pos (by omega)]
  have hlead : ∀ w, (List.replicate n (0 : BitVec 32))[4]? = some w → U32.nibble w 0 ≠ 0xF#4 := by
    intro w hw
    rw [List.getElem?_replicate] at hw
    split at hw
    · cases hw; decide
    · cases hw
  have hl : 4 ≤ (List.replicate n (0 : BitVec 32)).length := by rw [List.length_replicate]; exact hn
  obtain ⟨b, e1, e2, e3, e4⟩ := StreamText.init_holds K hl h0 hlead
  obtain ⟨b', f1, f2, f3⟩ := StreamText.init_backs K hl h0 hlead
  rw [e1] at f1
  cases f1
  rw [List.length_replicate] at e2
  refine ⟨b, ?_, e2, f3, ?_⟩
  · unfold StreamText.newArray; rw [if_neg (by omega)]; exact e1
  · unfold StreamText.numbersOf
    rw [e2]
    congr 1
    funext j
    rw [Sx.octetVal_eq]
    by_cases hj : j = 0
    · subst hj
      have : octetAt b 2 = some 0 := by
        show (b[0]?).map (U32.octet · 2) = _
        rw [e3, Option.map_some, U32.octet_setCrumb_ne _ _ _ (by omega) (by omega) (by omega), ← K.code_eq,
          U32.octet_setStatus_ne _ _ (by omega) (by omega)]
        decide
      rw [Nat.mul_zero, Nat.zero_add, this]; rfl
    · rw [e4 _ (by omega)]
      split
      · rfl
      · rw [if_neg (by omega)]
        unfold octetAt
        rw [List.getElem?_replicate, show (16 * j + 2) % 4 = 2 by omega]
        split <;> rfl

/-- C54, stream text in an array, exactly: `new()` in an array of `n` words, any calls of the
fallible setter of the text and, for `FunctionBlockName`, of the number, at least one text among
those which fit.  What `data()` gives is accepted by `UmpMessage::try_from` as a message of the type,
for `FunctionBlockName` if and only if its packets have the same number, and reads as the last text
that did fit, without NUL characters, and the number set last.  The number reaches all packets of
the array, so that a later, longer text has it too (other than in a `Vec`, C32), unless a shorter
text has cleared it in between (`Numbers`, see C73). -/
theorem C54_stream_text_array_exactly (t : StreamText) (ht : t ∈ StreamText.all) (n : Nat) (hn : 4 ≤ n)
    (os done : List StreamText.Op) (hos : t = .functionBlockName ∨ ∀ o ∈ os, ∃ s, o = .setText s)
    (hd : done = os.filter (StreamText.Op.Fits t (some n))) (s : String)
    (hs : StreamText.lastText done = some s) (nums : StreamText.Numbers)
    (hnum : nums = done.foldl (StreamText.Numbers.step t true) ⟨n / 4, fun _ => 0⟩) :
    ∃ b x, (t.newArray n >>= StreamText.Op.execAll t true os) =
        .ok (b, os.map (StreamText.Op.report t (some n))) ∧ b.length = n ∧
      StreamText.data b = .ok x ∧ x.length = 4 * textPackets t.capacity (utf8 s).length ∧
      (UmpMessage.tryFrom x = .ok (.streamText t, x) ↔ (t = .functionBlockName →
        ∀ j, j < textPackets t.capacity (utf8 s).length → nums.blocks j = nums.blocks 0)) ∧
      (t = .functionBlockName → StreamText.block x = .ok (nums.blocks 0)) ∧
      t.text x = .ok (withoutNul s) := by
  have K := StreamText.known_of_mem ht
  obtain ⟨b0, e0, n2, B, N⟩ := fresh_numbers K hn
  obtain ⟨b, h1, -, h3, h4, -, h6⟩ := C73_stream_text_exactly true t ht b0 B os hos (some n)
    (by rw [n2]; rfl) done hd nums (by rw [N]; exact hnum)
  obtain ⟨-, x, x1, -, x3, x4, x5⟩ := h6 s hs
  have hcap : 2 + t.offset + t.capacity = 16 ∧ 0 < t.capacity := by
    have := K.off
    have e := K.capacity_eq
    omega
  have hlen : x.length = 4 * textPackets t.capacity (utf8 s).length := by
    have := congrArg List.length x3
    rw [octets_length, textWire_length (h := 2 + t.offset) (fun j => by
      rw [List.length_append]
      have : t.offset = 0 ∨ t.offset = 1 := by have := K.off; omega
      rcases this with h | h <;> rw [h] <;> rfl), hcap.1] at this
    omega
  have hf := at_front (slice_front x1 (by
    intro e
    rw [e] at hlen
    have := packets_ne t.capacity (utf8 s).length hcap.2
    rw [List.length_nil] at hlen; omega))
  have he : ∃ h, (UmpKind.streamText t, h) ∈ umpTable := by
    have : (StreamText.all.all fun t => umpTable.any fun e => e.1 == .streamText t) = true := by
      decide +kernel
    have h := List.all_eq_true.mp this t ht
    obtain ⟨e, he, h⟩ := List.any_eq_true.mp h
    exact ⟨e.2, by rw [← eq_of_beq h]; exact he⟩
  obtain ⟨h, he⟩ := he
  refine ⟨b, x, by rw [e0]; exact h1, (h3 rfl).trans n2, x1, hlen, ?_, fun h => ?_, x4⟩
  · rw [← x5]
    exact C10_ump_dispatch_partial he (streamText_not_misfiled t) x (fun e => nomatch e)
  · rw [← h4 h]; unfold StreamText.block; rw [hf]

-- In an array of eight words the number is set before a name of two packets, and both have it.
example : ∃ b x, (StreamText.functionBlockName.newArray 8 >>= StreamText.Op.execAll .functionBlockName true
      [.setBlock 5, .setText "abcdefghijklmn"]) = .ok (b, [none, none]) ∧
    StreamText.data b = .ok x ∧ UmpMessage.tryFrom x = .ok (.streamText .functionBlockName, x) ∧
    StreamText.block x = .ok 5 ∧ StreamText.functionBlockName.text x = .ok "abcdefghijklmn" := by
  obtain ⟨b, x, h1, -, h3, -, h5, h6, h7⟩ := C54_stream_text_array_exactly .functionBlockName
    (by decide +kernel) 8 (by decide) [.setBlock 5, .setText "abcdefghijklmn"] _ (.inl rfl) rfl
    "abcdefghijklmn" (by decide +kernel) _ rfl
  exact ⟨b, x, h1, h3, h5.mpr fun _ => by decide +kernel, (h6 rfl).trans (by decide +kernel),
    h7.trans (by decide +kernel)⟩

end Midi2
