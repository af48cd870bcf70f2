import Verif.Spec.TextHistory
import Verif.Props.TextExact
import Verif.Props.TextNumbers
import Verif.Props.TextStream

/-!
# C73: histories of text messages that begin anywhere
-/

namespace Midi2

namespace FlexText

theorem setGroup_backs {t : FlexText} {b : Buf .ump} (B : t.Backs b) (g : BitVec 4) :
    t.Backs (setGroup b g) ∧ group (setGroup b g) = .ok g ∧ channel (setGroup b g) = channel b ∧
      textBytes (setGroup b g) = textBytes b := by
  obtain ⟨w, e1, e2, e3, e4⟩ := backs_word B
  have h0 : (setGroup b g)[0]? = some (U32.setNibble w 1 g) := by
    rw [setGroup_word, if_pos ⟨rfl, B.lead_pos⟩, e1]; rfl
  have n0 : U32.nibble (U32.setNibble w 1 g) 0 = U32.nibble w 0 := by
    rw [U32.nibble_setNibble _ _ _ (by omega) (by omega), if_neg (by omega)]
  refine ⟨backs_of_word (by rw [setGroup_length]; exact B.len) h0 (by rw [n0]; exact e2) ?_ ?_,
    ?_, ?_, ?_⟩
  · rw [U32.octet_setNibble_ne _ _ _ (by omega) (by omega) (by omega)]; exact e3
  · rw [U32.octet_setNibble_ne _ _ _ (by omega) (by omega) (by omega)]; exact e4
  · rw [group_word h0, U32.nibble_setNibble _ _ _ (by omega) (by omega), if_pos rfl]
  · rw [channel_word h0, channel_word e1, channelOf_setNibble]
  · exact textBytes_congr B.len (setGroup_length b g) fun a ha => setGroup_octet b g (by omega)

/-- The type and the group are parts of the first octet. -/
theorem field_part (b' b : Buf .ump) (h : fieldAt b' 0 0 8 = fieldAt b 0 0 8) {p n : Nat}
    (hn : n = 4) (hp : p = 0 ∨ p = 4) : fieldAt b' 0 p n = fieldAt b 0 p n := by
  subst hn
  unfold fieldAt at *
  cases h1 : b'[0]? with
  | none =>
    rw [h1] at h
    cases h2 : b[0]? with
    | none => rfl
    | some y => rw [h2] at h; cases h
  | some x =>
    rw [h1] at h
    cases h2 : b[0]? with
    | none => rw [h2] at h; cases h
    | some y =>
      rw [h2] at h
      simp only [Option.map_some, Option.some.injEq] at h ⊢
      unfold field at h ⊢
      generalize x.toNat = x at *
      generalize y.toNat = y at *
      rcases hp with rfl | rfl
      · simp only [Nat.reduceSub, Nat.reducePow] at *
        omega
      · simp only [Nat.reduceSub, Nat.reducePow] at *
        omega

theorem setChannel_accepts {t : FlexText} {b : Buf .ump} (A : t.Accepts b) (c : Option (BitVec 4)) :
    ∃ b', setChannel b c = .ok b' ∧ b'.length = b.length ∧ t.Accepts b' := by
  obtain ⟨b', h1, h2, -, h4, h5, -⟩ := C40_flex_text_exactly t b A.backs c
  have hlen := A.len
  have hf : ∀ p n, (p, n) ∈ [(0, 4), (4, 4), (8, 2), (16, 8), (24, 8)] → ∀ i,
      fieldAt b' i p n = fieldAt b i p n := by
    intro p n hp i
    by_cases hi : i = 0
    · subst hi
      simp only [List.mem_cons, Prod.mk.injEq, List.not_mem_nil, or_false] at hp
      have e0 := h5 0 8 (by simp)
      rcases hp with ⟨rfl, rfl⟩ | ⟨rfl, rfl⟩ | ⟨rfl, rfl⟩ | ⟨rfl, rfl⟩ | ⟨rfl, rfl⟩
      · exact field_part b' b e0 (by decide) (by decide)
      · exact field_part b' b e0 (by decide) (by decide)
      · exact h5 8 2 (by simp)
      · exact h5 16 8 (by simp)
      · exact h5 24 8 (by simp)
    · unfold fieldAt
      rw [h4 i hi]
  have hrun : (run b').map (fun w => field w 8 2) = (run b).map fun w => field w 8 2 := by
    apply Sx.map_takeWhile_congr
    · unfold packetHeads
      simp only [List.length_map, List.length_range]
      rw [h2]
    · intro j x y hx hy
      rw [Sx.packetHeads_getElem? _ _ (by omega)] at hx hy
      have a0 := hf 0 4 (by simp) (4 * j)
      have a1 := hf 8 2 (by simp) (4 * j)
      unfold fieldAt at a0 a1
      rw [hx, hy] at a0 a1
      simp only [Option.map_some, Option.some.injEq] at a0 a1
      rw [a0, a1]
      exact ⟨rfl, rfl⟩
  have hrl : (run b').length = (run b).length := by simpa using congrArg List.length hrun
  have hslots : slots b' = slots b := by
    rw [slots_eq, slots_eq, h2]
    apply List.map_congr_left
    intro i _
    have ha : slotAddr 4 i = 16 * (i / 12) + 4 + i % 12 := rfl
    unfold octetAt
    rw [h4 _ (by omega)]
  refine ⟨b', h1, h2, by rw [h2]; exact A.len, by rw [hrun]; exact A.formats, ?_, ?_, ?_,
    by rw [hslots]; exact A.text⟩
  · intro j ha hb
    rw [hf 4 4 (by simp), hf 4 4 (by simp)]
    exact A.groups j (by omega) (by omega)
  · intro j hb
    rw [hf 16 8 (by simp)]
    exact A.banks j (by omega)
  · intro j hb
    rw [hf 24 8 (by simp)]
    exact A.statuses j (by omega)

/-- Room in the buffer. -/
def room (fixed : Bool) (b : Buf .ump) : Option Nat := if fixed then some b.length else none

/-- What is known of a message before and after the first text was set. -/
structure Follows (fixed : Bool) (t : FlexText) (b0 b : Buf .ump) (st : State) (told : Bool) :
    Prop where
  backs : t.Backs b
  group : group b = .ok st.group
  channel : channel b = .ok (st.channels 0)
  same : fixed = true → b.length = b0.length
  before : told = false → b.length = b0.length ∧ text b = text b0 ∧ (t.Accepts b0 → t.Accepts b)
  after : told = true → t.Holds b st.group st.channels (strBytes st.text) ∧
    (fixed = false → b.length = 4 * textPackets 12 (strBytes st.text).length)

def Op.isText : Op → Bool
  | .setText _ => true
  | _ => false

theorem Follows.step {fixed : Bool} {t : FlexText} {b0 b : Buf .ump} {st : State} {told : Bool}
    (F : Follows fixed t b0 b st told) (o : Op) :
    ∃ b', o.exec fixed b = .ok (b', o.report (room fixed b0)) ∧
      if o.Fits (room fixed b0) then Follows fixed t b0 b' (st.step o) (told || o.isText)
      else b' = b := by
  cases o with
  | setText s =>
    cases fixed with
    | false =>
      obtain ⟨b', f1, f2, H⟩ := setText_holds F.backs F.group F.channel s
      refine ⟨b', ?_, ?_⟩
      · show (setText b s >>= fun b' => Res.ok (b', (none : Option Error))) = _
        rw [f1]; rfl
      · rw [if_pos (show (Op.setText s).Fits (room false b0) = true from rfl)]
        exact ⟨H.backs, H.group_eq, H.channel_eq, (fun h => nomatch h),
          (fun h => by cases told <;> cases h), fun _ => ⟨H, fun _ => f2⟩⟩
    | true =>
      have hl := F.same rfl
      by_cases hf : 4 * textPackets 12 (utf8 s).length ≤ b0.length
      · have hF : (Op.setText s).Fits (room true b0) = true := decide_eq_true hf
        obtain ⟨b', f1, f2, H⟩ := trySetText_holds F.backs F.group F.channel s
          (by rw [strBytes_length] at hf; omega)
        refine ⟨b', ?_, ?_⟩
        · unfold Op.report
          rw [hF]
          show (match trySetText b s with
            | .ok b' => Res.ok (b', (none : Option Error))
            | .err e => .ok (b, some e)
            | .panic => .panic) = _
          rw [f1]; rfl
        · rw [hF, if_pos rfl]
          exact ⟨H.backs, H.group_eq, H.channel_eq, fun _ => by rw [f2, hl],
            (fun h => by cases told <;> cases h), fun _ => ⟨H, (fun h => nomatch h)⟩⟩
      · have hF : (Op.setText s).Fits (room true b0) = false := decide_eq_false hf
        refine ⟨b, ?_, ?_⟩
        · unfold Op.report
          rw [hF]
          show (match trySetText b s with
            | .ok b' => Res.ok (b', (none : Option Error))
            | .err e => .ok (b, some e)
            | .panic => .panic) = _
          rw [trySetText_overflow b s (by rw [strBytes_length] at hf; omega)]; rfl
        · rw [hF, if_neg (by simp)]
  | setGroup g =>
    obtain ⟨g1, g2, g3, g4⟩ := setGroup_backs F.backs g
    refine ⟨FlexText.setGroup b g, rfl, ?_⟩
    rw [if_pos (show (Op.setGroup g).Fits (room fixed b0) = true from rfl)]
    refine ⟨g1, g2, g3.trans F.channel, fun h => by rw [setGroup_length]; exact F.same h, ?_, ?_⟩
    · intro h
      obtain ⟨x1, x2, x3⟩ := F.before (by cases told <;> first | rfl | cases h)
      refine ⟨by rw [setGroup_length]; exact x1, ?_, fun A => ?_⟩
      · rw [← x2]
        unfold text
        rw [g4]
      · exact (C27_flex_text_set_group t b (x3 A) g).2.2.2.2.2
    · intro h
      obtain ⟨y1, y2⟩ := F.after (by cases told <;> first | rfl | cases h)
      exact ⟨y1.setGroup g, fun h => by rw [setGroup_length]; exact y2 h⟩
  | setChannel c =>
    obtain ⟨b', c1, c2, c3, c4, c5⟩ := C40_flex_text_set_get t b F.backs c
    obtain ⟨b'', d1, d2, -⟩ := C40_flex_text_exactly t b F.backs c
    rw [c1] at d1
    cases d1
    refine ⟨b', ?_, ?_⟩
    · show (FlexText.setChannel b c >>= fun b' => Res.ok (b', (none : Option Error))) = _
      rw [c1]; rfl
    · rw [if_pos (show (Op.setChannel c).Fits (room fixed b0) = true from rfl)]
      refine ⟨c5, c3.trans F.group, c2, fun h => by rw [d2]; exact F.same h, ?_, ?_⟩
      · intro h
        obtain ⟨x1, x2, x3⟩ := F.before (by cases told <;> first | rfl | cases h)
        refine ⟨by rw [d2]; exact x1, c4.trans x2, fun A => ?_⟩
        obtain ⟨b3, e1, -, e3⟩ := setChannel_accepts (x3 A) c
        rw [c1] at e1
        cases e1
        exact e3
      · intro h
        obtain ⟨y1, y2⟩ := F.after (by cases told <;> first | rfl | cases h)
        obtain ⟨b3, e1, e2, e3⟩ := y1.setChannel c
        rw [c1] at e1
        cases e1
        exact ⟨e3, fun h => by rw [e2]; exact y2 h⟩

theorem Follows.steps {fixed : Bool} {t : FlexText} {b0 : Buf .ump} (os : List Op) :
    ∀ {b : Buf .ump} {st : State} {told : Bool}, Follows fixed t b0 b st told →
    ∃ b', Op.execAll fixed os b = .ok (b', os.map (Op.report (room fixed b0))) ∧
      Follows fixed t b0 b' ((os.filter (Op.Fits (room fixed b0))).foldl State.step st)
        (told || (os.filter (Op.Fits (room fixed b0))).any Op.isText) := by
  induction os with
  | nil =>
    intro b st told F
    exact ⟨b, rfl, by simpa using F⟩
  | cons o os ih =>
    intro b st told F
    obtain ⟨b1, e1, e2⟩ := F.step o
    by_cases hf : o.Fits (room fixed b0) = true
    · rw [if_pos hf] at e2
      obtain ⟨b', e3, e4⟩ := ih e2
      refine ⟨b', ?_, ?_⟩
      · show (o.exec fixed b >>= _) = _
        rw [e1, Res.ok_bind]
        show (Op.execAll fixed os b1 >>= _) = _
        rw [e3]; rfl
      · rw [List.filter_cons, if_pos hf, List.foldl_cons, List.any_cons, ← Bool.or_assoc]
        exact e4
    · rw [if_neg hf] at e2
      subst e2
      obtain ⟨b', e3, e4⟩ := ih F
      refine ⟨b', ?_, ?_⟩
      · show (o.exec fixed b1 >>= _) = _
        rw [e1, Res.ok_bind]
        show (Op.execAll fixed os b1 >>= _) = _
        rw [e3]; rfl
      · rw [List.filter_cons, if_neg hf]
        exact e4

theorem Holds.text_shown {t : FlexText} {b : Buf .ump} {g : BitVec 4}
    {cs : Nat → Option (BitVec 4)} {s : String} (H : t.Holds b g cs (strBytes s)) :
    text b = shown (readBack (b.length / 4) s) := by
  have hle := le_textPackets (cap := 12) (n := (strBytes s).length) (by omega)
  have h4 := H.len4
  have hw := H.whole
  unfold readBack
  rw [strBytes_length]
  exact text_of_taken (by omega) (by omega) H.textBytes_eq

theorem shown_bytes {b : Buf .ump} {l : List (BitVec 8)} (h : textBytes b = .ok l)
    {x : Option String} (ht : text b = shown x) (hx : x.isSome = true) : ∃ s, strBytes s = l := by
  cases x with
  | none => cases hx
  | some u => exact ⟨u, (bytes_of_text h ht).symm⟩

/-- What a receiver says to the message. -/
theorem Holds.sent {t : FlexText} {b : Buf .ump} {g : BitVec 4} {cs : Nat → Option (BitVec 4)}
    {s : String} (H : t.Holds b g cs (strBytes s)) :
    t.tryFrom (b.take (4 * textPackets 12 (strBytes s).length)) =
        .ok (b.take (4 * textPackets 12 (strBytes s).length)) ↔
      readBack (textPackets 12 (strBytes s).length) s ≠ none := by
  have T := H.take
  have hlen : (b.take (4 * textPackets 12 (strBytes s).length)).length =
      4 * textPackets 12 (strBytes s).length := by
    rw [List.length_take]
    have := H.whole
    omega
  have ht := T.text_shown
  rw [hlen, Nat.mul_div_cancel_left _ (by omega)] at ht
  constructor
  · intro h e
    have A := (FlexText.tryFrom_iff t _).mp h
    obtain ⟨s, hs, -⟩ := A.text_eq
    rw [ht, e] at hs
    cases hs
  · intro h
    rw [FlexText.tryFrom_iff]
    refine T.accepts hlen ?_
    have hb := T.textBytes_eq
    have := shown_bytes hb ht (by
      cases hx : readBack _ _ with
      | none => exact absurd hx h
      | some u => rfl)
    rw [hlen, Nat.mul_div_cancel_left _ (by omega)] at this
    exact this

end FlexText

open FlexText

/-- C73: any calls on any flex data text message, in a buffer that grows or in one of fixed size.
Nothing panics.  `try_set_text` reports `BufferOverflow` exactly when the text needs more words
than there are, and then has changed nothing.  Group and channel are the last ones set.  Until
the first text has found room the text is the old one and the message stays accepted; from then
on `data()` is the encoding of the last text that found room, with the channels that `State`
describes, and `text()` returns what `readBack` says. -/
theorem C73_flex_text_exactly (fixed : Bool) (t : FlexText) (b : Buf .ump) (B : t.Backs b) (g : BitVec 4)
    (c : Option (BitVec 4)) (hg : FlexText.group b = .ok g) (hc : FlexText.channel b = .ok c)
    (os : List FlexText.Op) (room : Option Nat)
    (hr : room = if fixed then some b.length else none) (done : List FlexText.Op)
    (hd : done = os.filter (Op.Fits room)) (st : FlexText.State)
    (hst : st = done.foldl State.step ⟨g, fun _ => c, ""⟩) :
    ∃ b', Op.execAll fixed os b = .ok (b', os.map (Op.report room)) ∧ t.Backs b' ∧
      FlexText.group b' = .ok st.group ∧ FlexText.channel b' = .ok (st.channels 0) ∧
      (fixed = true → b'.length = b.length) ∧
      ((∀ s, .setText s ∉ done) → b'.length = b.length ∧ FlexText.text b' = FlexText.text b ∧
        (t.tryFrom b = .ok b → t.tryFrom b' = .ok b')) ∧
      ((∃ s, .setText s ∈ done) → FlexText.text b' = shown (readBack (b'.length / 4) st.text) ∧
        ∃ d, FlexText.data b' = .ok d ∧ (fixed = false → d = b') ∧
          t.IsEncoding d st.group st.channels st.text ∧
          FlexText.text d = shown (readBack (d.length / 4) st.text) ∧
          (t.tryFrom d = .ok d ↔ readBack (d.length / 4) st.text ≠ none)) := by
  have hroom : room = FlexText.room fixed b := hr
  subst hd hroom hst
  obtain ⟨b', e1, F⟩ := Follows.steps (fixed := fixed) (t := t) (b0 := b) os (b := b)
    (st := ⟨g, fun _ => c, ""⟩) (told := false)
    ⟨B, hg, hc, fun _ => rfl, fun _ => ⟨rfl, rfl, id⟩, (fun h => nomatch h)⟩
  rw [Bool.false_or] at F
  refine ⟨b', e1, F.backs, F.group, F.channel, F.same, fun h => ?_, fun ⟨s, h⟩ => ?_⟩
  · have : (os.filter (Op.Fits (FlexText.room fixed b))).any Op.isText = false := by
      rw [List.any_eq_false]
      intro o ho
      cases o with
      | setText s => exact absurd ho (h s)
      | setGroup g => exact Bool.false_ne_true
      | setChannel c => exact Bool.false_ne_true
    obtain ⟨x1, x2, x3⟩ := F.before this
    exact ⟨x1, x2, fun h => (FlexText.tryFrom_iff t b').mpr (x3 ((FlexText.tryFrom_iff t b).mp h))⟩
  · have : (os.filter (Op.Fits (FlexText.room fixed b))).any Op.isText = true :=
      List.any_eq_true.mpr ⟨_, h, rfl⟩
    obtain ⟨H, y2⟩ := F.after this
    refine ⟨H.text_shown, ?_⟩
    obtain ⟨d, d1, d2⟩ := isEncoding_of_holds H
    have hd := H.data_eq
    rw [d1] at hd
    cases hd
    have T := H.take
    have hlen : ∀ u, (4 * textPackets 12 (strBytes u).length ≤ b'.length) →
        (b'.take (4 * textPackets 12 (strBytes u).length)).length / 4 =
          textPackets 12 (strBytes u).length := by
      intro u hu
      rw [List.length_take]
      omega
    refine ⟨_, d1, fun h => by rw [← y2 h, List.take_length], d2, T.text_shown, ?_⟩
    rw [hlen _ H.whole]
    exact H.sent

example : Op.execAll true [.setChannel (some 9), .setText "abcdefghijklmn",
      .setText "abcdefghijklmnopqrstuvwxyz", .setGroup 3]
    [0xD2100104, 0x41000000, 0, 0, 0, 0, 0, 0] =
    .ok ([0xD3490104, 0x61626364, 0x65666768, 0x696A6B6C, 0xD3C90104, 0x6D6E0000, 0, 0],
      [none, none, some .bufferOverflow, none]) := by decide +kernel

example : ∃ b', Op.execAll true [.setText "abcdefghijklm"] [0xD2050104, 0x41000000, 0, 0] =
      .ok (b', [some .bufferOverflow]) ∧ FlexText.text b' = .ok "A" := by
  obtain ⟨b', h1, -, -, -, -, h2, -⟩ := C73_flex_text_exactly true ⟨"", 1, 4⟩ [0xD2050104, 0x41000000, 0, 0]
    ⟨by decide, by decide, by decide, by decide⟩ 2 (some 5) (by decide +kernel) (by decide +kernel)
    [.setText "abcdefghijklm"] (some 4) rfl [] (by decide +kernel) _ rfl
  exact ⟨b', h1.trans (congrArg (fun x => Res.ok (b', [x])) (by decide +kernel)),
    (h2 (by simp)).2.1.trans (by decide +kernel)⟩

namespace StreamText

variable {t : StreamText} {b : Buf .ump}

theorem trySetText_block (K : t.Known) (B : t.Backs b) (h1 : t.offset = 1) {s : String}
    {b' : Buf .ump} (he : t.trySetText b s = .ok b')
    (hf : 4 * textPackets (14 - t.offset) (strBytes s).length ≤ b.length) {j : Nat}
    (hj : j < b.length / 4) :
    blockAt b' j = if j < textPackets (14 - t.offset) (strBytes s).length then blockAt b j else 0 := by
  obtain ⟨w, e1, _⟩ := backs_word K B
  obtain ⟨x, x1, -, x3⟩ := fill_eq K.off e1 (strBytes s) hf
  have : x = b' := by
    unfold trySetText fixedTryResize at he
    simp only at he
    rw [if_neg (by rw [sizeForStr_eq K.off]; omega), Res.ok_bind] at he
    have := x1.symm.trans he
    cases this
    rfl
  subst this
  unfold blockAt
  rw [x3 _ (by omega), if_neg (by omega), if_pos (by omega), Option.getD_some,
    show (16 * j + 2) / 16 = j by omega]

theorem setText_block (K : t.Known) (B : t.Backs b) (h1 : t.offset = 1) {s : String}
    {b' : Buf .ump} (he : t.setText b s = .ok b') (j : Nat) :
    blockAt b' j = if j < textPackets (14 - t.offset) (strBytes s).length then blockAt b j else 0 := by
  obtain ⟨x, x1, x2, H⟩ := setText_holds K B s
  rw [he] at x1
  cases x1
  by_cases hj : j < textPackets (14 - t.offset) (strBytes s).length
  · rw [if_pos hj]
    show (octetAt b' (16 * j + 2)).getD 0 = _
    rw [H.block h1 j hj]; rfl
  · rw [if_neg hj]
    show (octetAt b' (16 * j + 2)).getD 0 = _
    rw [octetAt_none (by omega)]; rfl

theorem setBlock_block (b : Buf .ump) (n : BitVec 8) (j : Nat) :
    blockAt (setBlock b n) j = if j < b.length / 4 then n else blockAt b j := by
  unfold blockAt
  rw [setBlock_octet]
  by_cases h : j < b.length / 4
  · rw [if_pos h, if_pos (by omega)]; rfl
  · rw [if_neg h, if_neg (by omega)]

theorem setBlock_bytes (K : t.Known) (h1 : t.offset = 1) (b : Buf .ump) (n : BitVec 8) :
    t.textBytes (setBlock b n) = t.textBytes b := by
  rw [textBytes_eq K, textBytes_eq K, setBlock_length]
  congr 2
  apply List.map_congr_left
  intro i hi
  have hmd := slotAddr_mod (first := 2 + t.offset) (by omega) i
  rw [setBlock_octet, if_neg (by omega)]

theorem setBlock_backs (K : t.Known) (B : t.Backs b) (n : BitVec 8) : t.Backs (setBlock b n) := by
  obtain ⟨w, e1, e2, e3⟩ := backs_word K B
  have hl := B.len
  refine backs_of_word K (by rw [setBlock_length]; exact hl) (w := U32.setOctet w 2 n) ?_ ?_ ?_
  · rw [setBlock_word, if_pos (by omega), e1]; rfl
  · rw [U32.nibble_setOctet_ne _ _ _ (by omega) (by omega) (by omega)]; exact e2
  · rw [U32.status_octets, U32.octet_setOctet _ _ _ (by omega) (by omega),
      U32.octet_setOctet _ _ _ (by omega) (by omega), if_neg (by omega), if_neg (by omega),
      ← U32.status_octets]
    exact e3

/-- Fields in the first two octets. -/
theorem field_setBlock (w : BitVec 32) (n : BitVec 8) :
    field (U32.setOctet w 2 n) 0 4 = field w 0 4 ∧ field (U32.setOctet w 2 n) 4 2 = field w 4 2 ∧
    field (U32.setOctet w 2 n) 6 10 = field w 6 10 ∧ field (U32.setOctet w 2 n) 16 8 = n.toNat := by
  have n0 := nibble_field (U32.setOctet w 2 n) (i := 0) (by omega)
  have m0 := nibble_field w (i := 0) (by omega)
  have n1 := crumb_field (U32.setOctet w 2 n) (i := 2) (by omega)
  have m1 := crumb_field w (i := 2) (by omega)
  have n2 := octet_field (U32.setOctet w 2 n) (i := 2) (by omega)
  rw [U32.nibble_setOctet_ne _ _ _ (by omega) (by omega) (by omega)] at n0
  rw [U32.crumb_setOctet_ne _ _ _ (by omega) (by omega) (by omega)] at n1
  rw [U32.octet_setOctet _ _ _ (by omega) (by omega), if_pos rfl] at n2
  refine ⟨n0.symm.trans m0, n1.symm.trans m1, ?_, n2.symm⟩
  rw [← streamStatus_field, ← streamStatus_field, streamStatusOf_eq, streamStatusOf_eq,
    U32.status_octets, U32.status_octets, U32.octet_setOctet _ _ _ (by omega) (by omega),
    U32.octet_setOctet _ _ _ (by omega) (by omega), if_neg (by omega), if_neg (by omega)]

theorem setBlock_accepts (K : t.Known) (h1 : t.offset = 1) (A : t.Accepts b) (n : BitVec 8) :
    t.Accepts (setBlock b n) := by
  have hl := A.len
  have hf : ∀ p m, (∀ w, field (U32.setOctet w 2 n) p m = field w p m) → ∀ i,
      fieldAt (setBlock b n) i p m = fieldAt b i p m := by
    intro p m h i
    unfold fieldAt
    rw [setBlock_word]
    split
    · rw [Option.map_map]
      cases b[i]? with
      | none => rfl
      | some w => exact congrArg some (h w)
    · rfl
  have hrun : (run (setBlock b n)).map (fun w => field w 4 2) = (run b).map fun w => field w 4 2 := by
    apply Sx.map_takeWhile_congr
    · unfold packetHeads
      simp only [List.length_map, List.length_range]
      rw [setBlock_length]
    · intro j x y hx hy
      rw [Sx.packetHeads_getElem? _ _ (by omega)] at hx hy
      have a0 := hf 0 4 (fun w => (field_setBlock w n).1) (4 * j)
      have a1 := hf 4 2 (fun w => (field_setBlock w n).2.1) (4 * j)
      unfold fieldAt at a0 a1
      rw [hx, hy] at a0 a1
      simp only [Option.map_some, Option.some.injEq] at a0 a1
      rw [a0, a1]
      exact ⟨rfl, rfl⟩
  have hb : ∀ j, 4 * (j + 1) ≤ b.length → fieldAt (setBlock b n) (4 * j) 16 8 = some n.toNat := by
    intro j hj
    unfold fieldAt
    rw [setBlock_word, if_pos (by omega), List.getElem?_eq_getElem (by omega)]
    exact congrArg some (field_setBlock _ n).2.2.2
  refine ⟨by rw [setBlock_length]; exact hl, by rw [hrun]; exact A.formats, ?_, ?_, ?_⟩
  · intro j h
    rw [setBlock_length] at h
    rw [hf 6 10 (fun w => (field_setBlock w n).2.2.1)]
    exact A.statuses j h
  · intro _ j h
    rw [setBlock_length] at h
    have := hb 0 (by omega)
    rw [Nat.mul_zero] at this
    rw [hb j h, this]
  · have hs : t.slots (setBlock b n) = t.slots b := by
      rw [slots_eq K, slots_eq K, setBlock_length]
      congr 1
      apply List.map_congr_left
      intro i hi
      have hmd := slotAddr_mod (first := 2 + t.offset) (by omega) i
      rw [setBlock_octet, if_neg (by omega)]
    rw [hs]
    exact A.text

/-- Room in the buffer. -/
def room (fixed : Bool) (b : Buf .ump) : Option Nat := if fixed then some b.length else none

/-- What is known of a message before and after the first text was set. -/
structure Follows (fixed : Bool) (t : StreamText) (b0 b : Buf .ump) (st : Numbers)
    (last : Option String) : Prop where
  backs : t.Backs b
  packets : st.packets = b.length / 4
  blocks : t.offset = 1 → ∀ j, (fixed = true → j < b.length / 4) → blockAt b j = st.blocks j
  same : fixed = true → b.length = b0.length
  before : last = none → b.length = b0.length ∧ t.text b = t.text b0 ∧ (t.Accepts b0 → t.Accepts b)
  after : ∀ s, last = some s → t.Holds b st.blocks (strBytes s) ∧
    (fixed = false → b.length = 4 * textPackets (14 - t.offset) (strBytes s).length)

theorem Follows.step {fixed : Bool} (K : t.Known) {b0 : Buf .ump} {st : Numbers}
    {last : Option String} (F : Follows fixed t b0 b st last) (o : Op)
    (ho : t.offset = 1 ∨ ∃ s, o = .setText s) :
    ∃ b', o.exec t fixed b = .ok (b', o.report t (room fixed b0)) ∧
      if o.Fits t (room fixed b0) then
        Follows fixed t b0 b' (st.step t fixed o) ((lastText [o]).or last)
      else b' = b := by
  cases o with
  | setText s =>
    have hc : textPackets t.capacity (utf8 s).length =
        textPackets (14 - t.offset) (strBytes s).length := by rw [K.capacity_eq, length_utf8]
    cases fixed with
    | false =>
      obtain ⟨b', f1, f2, H⟩ := setText_holds K F.backs s
      refine ⟨b', ?_, ?_⟩
      · show (t.setText b s >>= fun b' => Res.ok (b', (none : Option Error))) = _
        rw [f1]; rfl
      · rw [if_pos (show (Op.setText s).Fits t (room false b0) = true from rfl)]
        have hb : t.offset = 1 → ∀ j, blockAt b' j = (st.step t false (.setText s)).blocks j := by
          intro h1 j
          show _ = if j < textPackets t.capacity (utf8 s).length then st.blocks j else 0
          rw [setText_block K F.backs h1 f1, hc, F.blocks h1 j (fun h => nomatch h)]
        refine ⟨H.backs K, ?_, fun h1 j _ => hb h1 j, (fun h => nomatch h), (fun h => nomatch h), ?_⟩
        · show textPackets t.capacity (utf8 s).length = _
          rw [hc, f2]; omega
        · intro s' hs
          cases hs
          refine ⟨⟨H.whole, H.head, fun h1 j hj => ?_, H.slot⟩, fun _ => f2⟩
          rw [H.block h1 j hj, ← hb h1 j]
          show _ = some ((octetAt b' (16 * j + 2)).getD 0)
          rw [H.block h1 j hj]; rfl
    | true =>
      have hl := F.same rfl
      by_cases hf : 4 * textPackets t.capacity (utf8 s).length ≤ b0.length
      · have hF : (Op.setText s).Fits t (room true b0) = true := decide_eq_true hf
        obtain ⟨b', f1, f2, H⟩ := trySetText_holds K F.backs s (by rw [hc] at hf; omega)
        refine ⟨b', ?_, ?_⟩
        · unfold Op.report
          rw [hF]
          show (match t.trySetText b s with
            | .ok b' => Res.ok (b', (none : Option Error))
            | .err e => .ok (b, some e)
            | .panic => .panic) = _
          rw [f1]; rfl
        · rw [hF, if_pos rfl]
          have hb : t.offset = 1 → ∀ j, j < b.length / 4 →
              blockAt b' j = (st.step t true (.setText s)).blocks j := by
            intro h1 j hj
            show _ = if j < textPackets t.capacity (utf8 s).length then st.blocks j else 0
            rw [trySetText_block K F.backs h1 f1 (by rw [hc] at hf; omega) hj, hc,
              F.blocks h1 j (fun _ => hj)]
          refine ⟨H.backs K, ?_, fun h1 j hj => hb h1 j (by rw [← f2]; exact hj rfl),
            fun _ => by rw [f2, hl], (fun h => nomatch h), ?_⟩
          · show st.packets = _
            rw [f2]; exact F.packets
          · intro s' hs
            cases hs
            refine ⟨⟨H.whole, H.head, fun h1 j hj => ?_, H.slot⟩, (fun h => nomatch h)⟩
            have hw := H.whole
            rw [H.block h1 j hj, ← hb h1 j (by omega)]
            show _ = some ((octetAt b' (16 * j + 2)).getD 0)
            rw [H.block h1 j hj]; rfl
      · have hF : (Op.setText s).Fits t (room true b0) = false := decide_eq_false hf
        refine ⟨b, ?_, ?_⟩
        · unfold Op.report
          rw [hF]
          show (match t.trySetText b s with
            | .ok b' => Res.ok (b', (none : Option Error))
            | .err e => .ok (b, some e)
            | .panic => .panic) = _
          rw [trySetText_overflow K b s (by rw [hc] at hf; omega)]; rfl
        · rw [hF, if_neg (by simp)]
  | setBlock n =>
    have h1 : t.offset = 1 := by
      rcases ho with h | ⟨s, h⟩
      · exact h
      · cases h
    refine ⟨StreamText.setBlock b n, rfl, ?_⟩
    rw [if_pos (show (Op.setBlock n).Fits t (room fixed b0) = true from rfl)]
    have hb : ∀ j, (fixed = true → j < b.length / 4) →
        blockAt (StreamText.setBlock b n) j = (st.step t fixed (.setBlock n)).blocks j := by
      intro j hj
      show _ = if j < st.packets then n else st.blocks j
      rw [setBlock_block, F.packets, F.blocks h1 j hj]
    refine ⟨setBlock_backs K F.backs n, ?_, fun _ j hj => hb j (by rw [setBlock_length] at hj; exact hj),
      fun h => by rw [setBlock_length]; exact F.same h, ?_, ?_⟩
    · rw [setBlock_length]; exact F.packets
    · intro h
      obtain ⟨x1, x2, x3⟩ := F.before h
      refine ⟨by rw [setBlock_length]; exact x1, ?_, fun A => setBlock_accepts K h1 (x3 A) n⟩
      rw [← x2]
      unfold text
      rw [setBlock_bytes K h1]
    · intro s hs
      obtain ⟨y1, y2⟩ := F.after s hs
      have hw := y1.whole
      refine ⟨(y1.setBlock h1 n).congr_block fun j hj => ?_, fun h => by
        rw [setBlock_length]; exact y2 h⟩
      rw [← hb j (fun _ => by omega), setBlock_block, if_pos (by omega)]

theorem lastText_cons (o : Op) (os : List Op) :
    lastText (o :: os) = (lastText os).or (lastText [o]) := by
  cases o with
  | setText s => rfl
  | setBlock n =>
    show lastText os = (lastText os).or none
    cases lastText os <;> rfl

theorem Follows.steps {fixed : Bool} (K : t.Known) {b0 : Buf .ump} (os : List Op)
    (hos : t.offset = 1 ∨ ∀ o ∈ os, ∃ s, o = .setText s) :
    ∀ {b : Buf .ump} {st : Numbers} {last : Option String}, Follows fixed t b0 b st last →
    ∃ b', Op.execAll t fixed os b = .ok (b', os.map (Op.report t (room fixed b0))) ∧
      Follows fixed t b0 b' ((os.filter (Op.Fits t (room fixed b0))).foldl (Numbers.step t fixed) st)
        ((lastText (os.filter (Op.Fits t (room fixed b0)))).or last) := by
  induction os with
  | nil =>
    intro b st last F
    exact ⟨b, rfl, F⟩
  | cons o os ih =>
    intro b st last F
    have ih := @ih (hos.imp id fun h o ho => h o (List.mem_cons_of_mem _ ho))
    obtain ⟨b1, e1, e2⟩ := F.step K o (hos.imp id fun h => h o List.mem_cons_self)
    by_cases hf : o.Fits t (room fixed b0) = true
    · rw [if_pos hf] at e2
      obtain ⟨b', e3, e4⟩ := ih e2
      refine ⟨b', ?_, ?_⟩
      · show (o.exec t fixed b >>= _) = _
        rw [e1, Res.ok_bind]
        show (Op.execAll t fixed os b1 >>= _) = _
        rw [e3]; rfl
      · rw [List.filter_cons, if_pos hf, List.foldl_cons, lastText_cons, Option.or_assoc]
        exact e4
    · rw [if_neg hf] at e2
      subst e2
      obtain ⟨b', e3, e4⟩ := ih F
      refine ⟨b', ?_, ?_⟩
      · show (o.exec t fixed b1 >>= _) = _
        rw [e1, Res.ok_bind]
        show (Op.execAll t fixed os b1 >>= _) = _
        rw [e3]; rfl
      · rw [List.filter_cons, if_neg hf]
        exact e4

theorem Holds.text_shown (K : t.Known) {bl : Nat → BitVec 8} {s : String}
    (H : t.Holds b bl (strBytes s)) : t.text b = .ok (withoutNul s) := by
  unfold StreamText.text
  rw [H.textBytes_eq K, ← strBytes_withoutNul, Res.ok_bind, fromUtf8_strBytes]
  rfl

/-- What a receiver says to the message. -/
theorem Holds.sent (K : t.Known) {bl : Nat → BitVec 8} {s : String}
    (H : t.Holds b bl (strBytes s)) :
    t.tryFrom (b.take (4 * textPackets (14 - t.offset) (strBytes s).length)) =
        .ok (b.take (4 * textPackets (14 - t.offset) (strBytes s).length)) ↔
      (t.offset = 1 → ∀ j, j < textPackets (14 - t.offset) (strBytes s).length → bl j = bl 0) := by
  have T := H.take K
  have d3 : (b.take (4 * textPackets (14 - t.offset) (strBytes s).length)).length =
      4 * textPackets (14 - t.offset) (strBytes s).length := by
    rw [List.length_take]
    have := H.whole
    omega
  rw [StreamText.tryFrom_iff K]
  constructor
  · intro A h1 j hj
    have := A.blocks h1 j (by rw [d3]; omega)
    have hb := T.block h1
    have hv : ∀ i, i < textPackets (14 - t.offset) (strBytes s).length →
        fieldAt (b.take (4 * textPackets (14 - t.offset) (strBytes s).length)) (4 * i) 16 8 =
          some (bl i).toNat := by
      intro i hi
      have := hb i hi
      unfold octetAt at this
      unfold fieldAt
      rw [show (16 * i + 2) / 4 = 4 * i by omega, show (16 * i + 2) % 4 = 2 by omega] at this
      cases hx : (b.take (4 * textPackets (14 - t.offset) (strBytes s).length))[4 * i]? with
      | none => rw [hx] at this; cases this
      | some w =>
        rw [hx] at this
        simp only [Option.map_some, Option.some.injEq] at this ⊢
        rw [← this, octet_field _ (by omega)]
    rw [hv j hj] at this
    have h0 := hv 0 (H.packets_pos K)
    rw [Nat.mul_zero] at h0
    rw [h0] at this
    exact BitVec.eq_of_toNat_eq (Option.some.inj this)
  · intro h
    refine T.accepts K d3 (fun h1 j hj => h h1 j hj) ⟨withoutNul s, ?_⟩
    rw [strBytes_withoutNul]

theorem numbersOf_follows (fixed : Bool) (t : StreamText) (b : Buf .ump) (B : t.Backs b) :
    Follows fixed t b b (numbersOf b) none := by
  refine ⟨B, rfl, fun _ j _ => ?_, fun _ => rfl, fun _ => ⟨rfl, rfl, id⟩, (fun s h => nomatch h)⟩
  apply BitVec.eq_of_toNat_eq
  rw [blockAt_val]
  show _ = (BitVec.ofNat 8 (octetVal b (16 * j + 2))).toNat
  rw [← blockAt_val, BitVec.ofNat_toNat, BitVec.setWidth_eq]

end StreamText

open StreamText in
/-- C73: the same for the stream text messages.  `name()` and `id()` return the last text that
found room, without its NUL characters.  The function block numbers are those of `Numbers`; what
`data()` returns is accepted exactly when they are all the same. -/
theorem C73_stream_text_exactly (fixed : Bool) (t : StreamText) (ht : t ∈ StreamText.all) (b : Buf .ump)
    (B : t.Backs b) (os : List StreamText.Op)
    (hos : t = .functionBlockName ∨ ∀ o ∈ os, ∃ s, o = .setText s) (room : Option Nat)
    (hr : room = if fixed then some b.length else none) (done : List StreamText.Op)
    (hd : done = os.filter (Op.Fits t room)) (nums : Numbers)
    (hn : nums = done.foldl (Numbers.step t fixed) (numbersOf b)) :
    ∃ b', Op.execAll t fixed os b = .ok (b', os.map (Op.report t room)) ∧ t.Backs b' ∧
      (fixed = true → b'.length = b.length) ∧
      (t = .functionBlockName → StreamText.block b' = .ok (nums.blocks 0)) ∧
      (lastText done = none → b'.length = b.length ∧ t.text b' = t.text b ∧
        (t.tryFrom b = .ok b → t.tryFrom b' = .ok b')) ∧
      ∀ s, lastText done = some s → t.text b' = .ok (withoutNul s) ∧
        ∃ d, StreamText.data b' = .ok d ∧ (fixed = false → d = b') ∧
          t.IsEncoding d nums.blocks s ∧ t.text d = .ok (withoutNul s) ∧
          (t.tryFrom d = .ok d ↔ (t = .functionBlockName →
            ∀ j, j < textPackets t.capacity (utf8 s).length → nums.blocks j = nums.blocks 0)) := by
  have K : t.Known := known_of_mem ht
  have hoff : t.offset = 1 ↔ t = .functionBlockName := by
    simp only [StreamText.all, List.mem_cons, List.not_mem_nil, or_false] at ht
    rcases ht with rfl | rfl | rfl <;> decide
  have hroom : room = StreamText.room fixed b := hr
  subst hd hroom hn
  obtain ⟨b', e1, F⟩ := Follows.steps K os (hos.imp hoff.mpr id) (numbersOf_follows fixed t b B)
  rw [Option.or_none] at F
  have h4 := F.backs.len
  refine ⟨b', e1, F.backs, F.same, fun h => ?_, fun h => ?_, fun s h => ?_⟩
  · obtain ⟨w, w1, _⟩ := backs_word K F.backs
    rw [← F.blocks (hoff.mpr h) 0 (fun _ => by omega), block_word w1]
    unfold blockAt octetAt
    rw [w1]
    rfl
  · obtain ⟨x1, x2, x3⟩ := F.before h
    exact ⟨x1, x2, fun h => (StreamText.tryFrom_iff K b').mpr (x3 ((StreamText.tryFrom_iff K b).mp h))⟩
  · obtain ⟨H, y2⟩ := F.after s h
    refine ⟨H.text_shown K, ?_⟩
    obtain ⟨d, d1, d2, d3⟩ := StreamText.isEncoding_of_holds K H
    have T := H.take K
    have hd := H.data_eq K
    rw [d2] at hd
    cases hd
    rw [K.capacity_eq, length_utf8] at d3
    refine ⟨_, d2, fun h => by rw [← y2 h, List.take_length], d1, T.text_shown K, ?_⟩
    rw [K.capacity_eq, length_utf8, H.sent K, hoff]

-- The number is set for two packets; the longer name does not fit, the shorter one does.
example : StreamText.Op.execAll .functionBlockName true [.setBlock 5, .setText "abcdefghijklmn",
      .setText "abcdefghijklmnopqrstuvwxyz0", .setText "a", .setText "abcdefghijklmn"]
    [0xF0120368, 0x69000000, 0, 0, 0xF0120368, 0x69000000, 0, 0] =
    .ok ([0xF4120561, 0x62636465, 0x66676869, 0x6A6B6C6D, 0xFC12006E, 0, 0, 0],
      [none, none, some .bufferOverflow, none, none]) := by decide +kernel

example : ∃ b', StreamText.Op.execAll .functionBlockName false [.setBlock 5, .setText "abc"]
      sampleBlockName = .ok (b', [none, none]) ∧
    StreamText.block b' = .ok 5 ∧ StreamText.functionBlockName.text b' = .ok "abc" := by
  obtain ⟨b', h1, -, -, h2, -, h3⟩ := C73_stream_text_exactly false .functionBlockName (by decide +kernel)
    sampleBlockName ⟨by decide, by decide, by decide⟩ [.setBlock 5, .setText "abc"] (.inl rfl)
    none rfl [.setBlock 5, .setText "abc"] rfl _ rfl
  exact ⟨b', h1, (h2 rfl).trans rfl, (h3 "abc" rfl).1.trans (by decide +kernel)⟩

end Midi2
