import Verif.Lemmas.TextTail
import Verif.Lemmas.Refusal
import Verif.Lemmas.SysexJourney
import Verif.Spec.TextJourney

/-! # C72: journeys of text messages -/

namespace Midi2

theorem octetAt_append_zeros (b : Buf .ump) (n : Nat) {a : Nat} (h1 : 4 * b.length ≤ a)
    (h2 : a < 4 * (b.length + n)) : octetAt (b ++ List.replicate n 0) a = some 0 := by
  unfold octetAt
  rw [List.getElem?_append_right (by omega), List.getElem?_replicate, if_pos (by omega),
    Option.map_some]
  have hz : ∀ r < 4, U32.octet (0 : BitVec 32) r = 0 := by decide
  rw [hz _ (Nat.mod_lt _ (by omega))]

theorem rebuffer_zeros (k : UmpKind) (b : Buf .ump) (n : Nat) :
    k.tryRebufferArray n b =
      if b.length ≤ n then .ok (b ++ List.replicate (n - b.length) 0) else .err .bufferOverflow := by
  unfold UmpKind.tryRebufferArray
  by_cases h : b.length ≤ n
  · rw [if_neg (by omega), if_pos h]
  · rw [if_pos (by omega), if_neg h]

theorem ZeroTail.octet_zeros {b : Buf .ump} (z : ZeroTail b) (n : Nat) {a : Nat}
    (ha : b.length / 4 ≤ a / 16) (hl : a < 4 * (b.length + n)) :
    octetAt (b ++ List.replicate n 0) a = some 0 := by
  by_cases h : a < 4 * b.length
  · rw [Sx.octetAt_append h]
    exact z a ha h
  · exact octetAt_append_zeros b n (by omega) hl

theorem ZeroTail.zeros {b : Buf .ump} (z : ZeroTail b) (n : Nat) :
    ZeroTail (b ++ List.replicate n 0) := by
  intro a ha hl
  rw [List.length_append, List.length_replicate] at ha hl
  exact z.octet_zeros n (by omega) hl

/-- What parses is returned, what does not is refused. -/
theorem silent_cases {x : Told (Buf .ump)} {r : Res (Buf .ump)} (h : x.silent = r)
    (hp : r ≠ .panic) : (∃ b, r = .ok b) ∨ r = .err .invalidData := by
  subst h
  cases x with
  | ok b => exact .inl ⟨b, rfl⟩
  | refused t => exact .inr rfl
  | panic => exact absurd rfl hp

namespace FlexText

/-- The message on its journey. -/
structure At (t : FlexText) (p : Place) (b : Buf .ump) : Prop where
  holds : t.Holds b p.state.group p.state.channels (strBytes p.state.text)
  len : b.length = p.words
  tail : ZeroTail b

variable {t : FlexText} {p : Place} {b : Buf .ump}

theorem packetsOf_eq (s : String) : packetsOf s = textPackets 12 (strBytes s).length := by
  unfold packetsOf
  rw [strBytes_length]

theorem Holds.zeros {g : BitVec 4} {cs : Nat → Option (BitVec 4)} {l : List (BitVec 8)}
    (H : t.Holds b g cs l) (z : ZeroTail b) (n : Nat) :
    t.Holds (b ++ List.replicate n 0) g cs l := by
  have hw := H.whole
  have hle := le_textPackets (cap := 12) (n := l.length) (by omega)
  refine ⟨by rw [List.length_append]; omega, ?_, ?_⟩
  · intro j hj r hr
    rw [Sx.octetAt_append (by omega)]
    exact H.head j hj r hr
  · intro i hi
    rw [List.length_append, List.length_replicate] at hi
    have ha : slotAddr 4 i = 16 * (i / 12) + 4 + i % 12 := rfl
    by_cases h : i < 12 * (b.length / 4)
    · rw [Sx.octetAt_append (by omega)]
      exact H.slot i (by omega)
    · rw [z.octet_zeros n (by omega) (by omega), List.getElem?_eq_none (by omega)]
      rfl

theorem At.zeros (A : At t p b) (n : Nat) :
    At t ⟨p.state, p.words + n⟩ (b ++ List.replicate n 0) := by
  refine ⟨A.holds.zeros A.tail n, ?_, A.tail.zeros n⟩
  rw [List.length_append, List.length_replicate, A.len]

theorem At.follows (A : At t p b) (fixed : Bool)
    (h : fixed = false → b.length = 4 * textPackets 12 (strBytes p.state.text).length) :
    Follows fixed t b b p.state true :=
  ⟨A.holds.backs, A.holds.group_eq, A.holds.channel_eq, fun _ => rfl, (fun h => nomatch h),
    fun _ => ⟨A.holds, h⟩⟩

theorem At.call (A : At t p b) (o : Op) :
    ∃ b' p', o.exec false b = .ok (b', none) ∧ p.step (.call o) = .ok p' ∧ At t p' b' := by
  have H := A.holds
  cases o with
  | setText s =>
    obtain ⟨b', f1, f2, H'⟩ := setText_holds H.backs H.group_eq H.channel_eq s
    refine ⟨b', _, ?_, rfl, H', ?_, zeroTail_whole f2⟩
    · show (FlexText.setText b s >>= fun b' => Res.ok (b', (none : Option Error))) = _
      rw [f1]; rfl
    · rw [f2, ← packetsOf_eq]
  | setGroup g =>
    exact ⟨_, _, rfl, rfl, H.setGroup g, (setGroup_length b g).trans A.len,
      A.tail.same (setGroup_tail b g)⟩
  | setChannel c =>
    obtain ⟨b', e1, e2, e3⟩ := H.setChannel c
    refine ⟨b', _, ?_, rfl, e3, e2.trans A.len, A.tail.same (setChannel_tail H.len4 e1)⟩
    show (FlexText.setChannel b c >>= fun b' => Res.ok (b', (none : Option Error))) = _
    rw [e1]; rfl

theorem At.leg (A : At t p b) (l : TextLeg Op) :
    (∀ e, p.step l = .error e → t.exec l b = .err e) ∧
    ∀ p', p.step l = .ok p' → ∃ b', t.exec l b = .ok b' ∧ At t p' b' := by
  cases l with
  | call o =>
    obtain ⟨b', p', h1, h2, h3⟩ := A.call o
    rw [h2]
    refine ⟨(fun e h => nomatch h), fun q hq => ?_⟩
    cases hq
    refine ⟨b', ?_, h3⟩
    show (o.exec false b >>= _) = _
    rw [h1]; rfl
  | rebuffer =>
    refine ⟨(fun e h => nomatch h), fun q hq => ?_⟩
    cases hq
    exact ⟨b, rfl, A⟩
  | array n os =>
    have hx : t.exec (.array n os) b = ((UmpKind.flexText t).tryRebufferArray n b >>=
      fun a => Op.execAll true os a >>= fun x => .ok x.1) := rfl
    have hp : p.step (.array n os) = if p.words ≤ n then
      .ok ⟨(os.filter (Op.Fits (some n))).foldl State.step p.state, n⟩
      else .error .bufferOverflow := rfl
    rw [hx, hp, rebuffer_zeros _ b n, A.len]
    by_cases h : p.words ≤ n
    · rw [if_pos h, if_pos h]
      refine ⟨(fun e h => nomatch h), fun q hq => ?_⟩
      cases hq
      have A' := A.zeros (n - p.words)
      rw [show p.words + (n - p.words) = n by omega] at A'
      have F' := A'.follows true (fun h => nomatch h)
      obtain ⟨b', e1, F⟩ := Follows.steps os F'
      have T := Follows.tail os F' _ e1
      have hr : FlexText.room true (b ++ List.replicate (n - p.words) 0) = some n :=
        congrArg some A'.len
      rw [hr] at F
      obtain ⟨H, -⟩ := F.after rfl
      refine ⟨b', ?_, H, (F.same rfl).trans A'.len, A'.tail.same T⟩
      rw [Res.ok_bind, e1]; rfl
    · rw [if_neg h, if_neg h]
      refine ⟨fun e he => ?_, (fun q hq => nomatch hq)⟩
      cases he
      rfl
  | send =>
    have hx : t.exec .send b = (data b >>= fun d => t.tryFrom d) := rfl
    have hp : p.step .send = if readBack (packetsOf p.state.text) p.state.text = none then
      .error .invalidData else .ok ⟨p.state, 4 * packetsOf p.state.text⟩ := rfl
    have H := A.holds
    have hs := H.sent
    have hw := H.whole
    rw [hx, hp, H.data_eq, Res.ok_bind, packetsOf_eq]
    by_cases h : readBack (textPackets 12 (strBytes p.state.text).length) p.state.text = none
    · rw [if_pos h]
      refine ⟨fun e he => ?_, (fun q hq => nomatch hq)⟩
      cases he
      rcases silent_cases (FlexText.told_silent t _) (tryFrom_ne_panic t _) with ⟨d, hd⟩ | hd
      · have := tryFrom_self hd
        subst this
        exact absurd h (hs.mp hd)
      · exact hd
    · rw [if_neg h]
      refine ⟨(fun e h => nomatch h), fun q hq => ?_⟩
      cases hq
      have hl : (b.take (4 * textPackets 12 (strBytes p.state.text).length)).length =
          4 * textPackets 12 (strBytes p.state.text).length := by
        rw [List.length_take]
        omega
      exact ⟨_, hs.mpr h, H.take, hl, zeroTail_whole hl⟩

theorem At.legs : ∀ (ls : List (TextLeg Op)) {p : Place} {b : Buf .ump}, At t p b →
    (∀ e, p.steps ls = .error e → t.execLegs ls b = .err e) ∧
    ∀ p', p.steps ls = .ok p' → ∃ b', t.execLegs ls b = .ok b' ∧ At t p' b'
  | [], p, b, A => ⟨(fun e h => nomatch h), fun q h => by cases h; exact ⟨b, rfl, A⟩⟩
  | l :: ls, p, b, A => by
    obtain ⟨h1, h2⟩ := A.leg l
    have hx : t.execLegs (l :: ls) b = (t.exec l b >>= fun y => t.execLegs ls y) := rfl
    have hp : p.steps (l :: ls) = (p.step l >>= fun p => p.steps ls) := rfl
    rw [hx, hp]
    cases hs : p.step l with
    | error e =>
      rw [h1 e hs]
      refine ⟨fun e' he => ?_, (fun q hq => nomatch hq)⟩
      cases he
      rfl
    | ok q =>
      obtain ⟨y, h3, h4⟩ := h2 q hs
      rw [h3]
      exact At.legs ls h4

end FlexText

open FlexText in
/-- C72: somebody sets the text of any flex data text message and sends it on a journey of calls,
moves to other buffers, work in arrays and receivers.  Nothing panics.  The first
array without room for what is brought to it reports `BufferOverflow`, the first receiver that does
not take the text `InvalidData` (C29).  Otherwise the message shows at the end what the steps make
of a text, a group and channels. -/
theorem C72_flex_text_partial (t : FlexText) (b : Buf .ump) (B : t.Backs b) (g : BitVec 4)
    (c : Option (BitVec 4)) (hg : FlexText.group b = .ok g) (hc : FlexText.channel b = .ok c)
    (s : String) (ls : List (TextLeg FlexText.Op)) (start : Place)
    (hs : start = ⟨⟨g, fun _ => c, s⟩, 4 * packetsOf s⟩) :
    (∀ e, start.steps ls = .error e → t.execLegs (.call (.setText s) :: ls) b = .err e) ∧
    ∀ p, start.steps ls = .ok p → ∃ b', t.execLegs (.call (.setText s) :: ls) b = .ok b' ∧
      b'.length = p.words ∧ FlexText.group b' = .ok p.state.group ∧
      FlexText.channel b' = .ok (p.state.channels 0) ∧
      FlexText.text b' = shown (readBack (p.words / 4) p.state.text) ∧
      ∃ d, FlexText.data b' = .ok d ∧ t.IsEncoding d p.state.group p.state.channels p.state.text := by
  obtain ⟨b1, f1, f2, H⟩ := setText_holds B hg hc s
  have A : At t start b1 := by
    subst hs
    exact ⟨H, by rw [f2, packetsOf_eq], zeroTail_whole f2⟩
  have hx : t.execLegs (.call (.setText s) :: ls) b = t.execLegs ls b1 := by
    show ((FlexText.setText b s >>= fun b' => Res.ok (b', (none : Option Error))) >>= fun x =>
      Res.ok x.1) >>= _ = _
    rw [f1]; rfl
  rw [hx]
  obtain ⟨h1, h2⟩ := At.legs ls A
  refine ⟨h1, fun p hp => ?_⟩
  obtain ⟨b', h3, A'⟩ := h2 p hp
  refine ⟨b', h3, A'.len, A'.holds.group_eq, A'.holds.channel_eq, ?_, isEncoding_of_holds A'.holds⟩
  rw [A'.holds.text_shown, A'.len]

-- A lyric in group 2: set, worked on in an array of fourteen words where the long text does not
-- fit, moved, sent.
example : (⟨"", 2, 1⟩ : FlexText).Backs [0xD2100201, 0, 0, 0] ∧
    (⟨"", 2, 1⟩ : FlexText).execLegs [.call (.setText "la"), .array 14 [.setChannel (some 7),
      .setText "abcdefghijklmnopqrstuvwxyzabcdefghijklmnopqrstuvwxyz", .setText "twelve and more"],
      .rebuffer, .call (.setGroup 9), .send] [0xD2100201, 0, 0, 0] =
    .ok [0xD9470201, 0x7477656C, 0x76652061, 0x6E64206D, 0xD9C70201, 0x6F726500, 0, 0] := by
  exact ⟨⟨by decide, by decide, by decide, by decide⟩, by decide +kernel⟩

-- A text of twelve octets that ends in a character of two is refused by the receiver.
example : (⟨"", 2, 1⟩ : FlexText).execLegs [.call (.setText "abcdefghijé"), .send]
      [0xD2100201, 0, 0, 0] = .err .invalidData := by
  refine (C72_flex_text_partial ⟨"", 2, 1⟩ [0xD2100201, 0, 0, 0]
    ⟨by decide, by decide, by decide, by decide⟩ 2 none (by decide +kernel) (by decide +kernel)
    "abcdefghijé" [.send] _ rfl).1 .invalidData ?_
  have h : FlexText.readBack (FlexText.packetsOf "abcdefghijé") "abcdefghijé" = none := by
    decide +kernel
  simp only [FlexText.Place.steps, FlexText.Place.step, if_pos h]
  rfl

namespace StreamText

/-- The message on its journey. -/
structure At (t : StreamText) (p : Place) (b : Buf .ump) : Prop where
  holds : t.Holds b p.numbers.blocks (strBytes p.text)
  len : b.length = p.words
  packets : p.numbers.packets = p.words / 4
  tail : ZeroTail b
  blocks : t.offset = 1 → ∀ j, blockAt b j = p.numbers.blocks j

variable {t : StreamText} {p : Place} {b : Buf .ump}

theorem packetsOf_eq (K : t.Known) (s : String) :
    t.packetsOf s = textPackets (14 - t.offset) (strBytes s).length := by
  unfold packetsOf
  rw [K.capacity_eq, length_utf8]

theorem Holds.zeros (K : t.Known) {bl : Nat → BitVec 8} {l : List (BitVec 8)} (H : t.Holds b bl l)
    (z : ZeroTail b) (n : Nat) : t.Holds (b ++ List.replicate n 0) bl l := by
  have ho := K.off
  have hw := H.whole
  have hle := le_textPackets (cap := 14 - t.offset) (n := l.length) (by omega)
  have h16 : 16 - (2 + t.offset) = 14 - t.offset := by omega
  refine ⟨by rw [List.length_append]; omega, ?_, ?_, ?_⟩
  · intro j hj r hr
    rw [Sx.octetAt_append (by omega)]
    exact H.head j hj r hr
  · intro h1 j hj
    rw [Sx.octetAt_append (by omega)]
    exact H.block h1 j hj
  · intro i hi
    rw [List.length_append, List.length_replicate] at hi
    have hdv := slotAddr_div (first := 2 + t.offset) (by omega) i
    rw [h16] at hdv
    have hc : 0 < 14 - t.offset := by omega
    have hi' : i / (14 - t.offset) < (b.length + n) / 4 := by
      rw [Nat.div_lt_iff_lt_mul hc, Nat.mul_comm]
      exact hi
    by_cases h : i < (14 - t.offset) * (b.length / 4)
    · have : i / (14 - t.offset) < b.length / 4 := by
        rw [Nat.div_lt_iff_lt_mul hc, Nat.mul_comm]; exact h
      rw [Sx.octetAt_append (by omega)]
      exact H.slot i h
    · have : ¬ i / (14 - t.offset) < b.length / 4 := by
        rw [Nat.div_lt_iff_lt_mul hc, Nat.mul_comm]; exact h
      have hm : (14 - t.offset) * textPackets (14 - t.offset) l.length ≤
          (14 - t.offset) * (b.length / 4) := Nat.mul_le_mul_left _ (by omega)
      rw [z.octet_zeros n (by omega) (by omega), List.getElem?_eq_none (by omega)]
      rfl

theorem blockAt_zeros (b : Buf .ump) (n j : Nat) :
    blockAt (b ++ List.replicate n 0) j = blockAt b j := by
  unfold blockAt
  by_cases h : 16 * j + 2 < 4 * b.length
  · rw [Sx.octetAt_append h]
  · rw [octetAt_none (b := b) (by omega)]
    by_cases h2 : 16 * j + 2 < 4 * (b.length + n)
    · rw [octetAt_append_zeros _ _ (by omega) h2]; rfl
    · rw [octetAt_none (by rw [List.length_append, List.length_replicate]; omega)]

theorem At.zeros (K : t.Known) (A : At t p b) (n : Nat) :
    At t ⟨⟨(p.words + n) / 4, p.numbers.blocks⟩, p.text, p.words + n⟩ (b ++ List.replicate n 0) := by
  refine ⟨A.holds.zeros K A.tail n, ?_, rfl, A.tail.zeros n,
    fun h1 j => by rw [blockAt_zeros]; exact A.blocks h1 j⟩
  rw [List.length_append, List.length_replicate, A.len]

theorem ZeroTail.blockAt {b : Buf .ump} (z : ZeroTail b) {j : Nat} (hj : b.length / 4 ≤ j) :
    blockAt b j = 0 := by
  unfold StreamText.blockAt
  by_cases h : 16 * j + 2 < 4 * b.length
  · rw [z _ (by omega) h]; rfl
  · rw [octetAt_none (by omega)]; rfl

theorem At.follows (K : t.Known) (A : At t p b) :
    Follows true t b b p.numbers (some p.text) := by
  refine ⟨A.holds.backs K, by rw [A.len, A.packets], fun h1 j _ => A.blocks h1 j, fun _ => rfl,
    (fun h => nomatch h), fun s hs => ?_⟩
  cases hs
  exact ⟨A.holds, (fun h => nomatch h)⟩

theorem At.call (K : t.Known) (A : At t p b) (o : Op) (ho : t.offset = 1 ∨ ∃ s, o = .setText s) :
    ∃ b', o.exec t false b = .ok (b', none) ∧
      At t ⟨p.numbers.step t false o, (lastText [o]).getD p.text, t.wordsAfter p.words o⟩ b' := by
  have H := A.holds
  cases o with
  | setText s =>
    have hc : textPackets t.capacity (utf8 s).length =
        textPackets (14 - t.offset) (strBytes s).length := by rw [K.capacity_eq, length_utf8]
    obtain ⟨b', f1, f2, H'⟩ := setText_holds K (H.backs K) s
    refine ⟨b', ?_, ?_, ?_, ?_, zeroTail_whole f2, ?_⟩
    · show (t.setText b s >>= fun b' => Res.ok (b', (none : Option Error))) = _
      rw [f1]; rfl
    · refine ⟨H'.whole, H'.head, fun h1 j hj => ?_, H'.slot⟩
      rw [H'.block h1 j hj, A.blocks h1]
      show _ = some (if j < textPackets t.capacity (utf8 s).length then p.numbers.blocks j else 0)
      rw [hc, if_pos (show j < textPackets (14 - t.offset) (strBytes s).length from hj)]
    · rw [f2]
      show _ = 4 * textPackets t.capacity (utf8 s).length
      rw [hc]
    · show textPackets t.capacity (utf8 s).length = 4 * textPackets t.capacity (utf8 s).length / 4
      omega
    · intro h1 j
      show _ = if j < textPackets t.capacity (utf8 s).length then p.numbers.blocks j else 0
      rw [setText_block K (H.backs K) h1 f1, hc, A.blocks h1]
  | setBlock n =>
    have h1 : t.offset = 1 := by
      rcases ho with h | ⟨s, h⟩
      · exact h
      · cases h
    have hw := H.whole
    have hl := A.len
    have hq := A.packets
    refine ⟨_, rfl, (H.setBlock h1 n).congr_block fun j hj => ?_, (setBlock_length b n).trans A.len,
      A.packets, A.tail.same (setBlock_tail b n), fun _ j => ?_⟩
    · show _ = if j < p.numbers.packets then n else p.numbers.blocks j
      rw [if_pos (by have hj : j < textPackets (14 - t.offset) (strBytes p.text).length := hj; omega)]
    · show _ = if j < p.numbers.packets then n else p.numbers.blocks j
      rw [setBlock_block, A.blocks h1, show b.length / 4 = p.numbers.packets by omega]

theorem steps_quiet (os : List Op) : ∀ st : Numbers, (∀ j, st.packets ≤ j → st.blocks j = 0) →
    (os.foldl (Numbers.step t true) st).packets = st.packets ∧
    ∀ j, st.packets ≤ j → (os.foldl (Numbers.step t true) st).blocks j = 0 := by
  induction os with
  | nil => exact fun st h => ⟨rfl, h⟩
  | cons o os ih =>
    intro st h
    rw [List.foldl_cons]
    cases o with
    | setText s =>
      refine ih (st.step t true (.setText s)) fun j hj => ?_
      show (if j < _ then st.blocks j else 0) = 0
      rw [h j hj, ite_self]
    | setBlock n =>
      refine ih (st.step t true (.setBlock n)) fun j (hj : st.packets ≤ j) => ?_
      show (if j < st.packets then n else st.blocks j) = 0
      rw [if_neg (by omega), h j hj]

theorem At.leg (K : t.Known) (hoff : t.offset = 1 ↔ t = .functionBlockName) (A : At t p b)
    (l : TextLeg Op) (hos : t.offset = 1 ∨ ∀ o ∈ legCalls l, ∃ s, o = .setText s) :
    (∀ e, p.step t l = .error e → t.exec l b = .err e) ∧
    ∀ p', p.step t l = .ok p' → ∃ b', t.exec l b = .ok b' ∧ At t p' b' := by
  cases l with
  | call o =>
    obtain ⟨b', h1, h2⟩ := A.call K o (hos.imp id fun h => h o List.mem_cons_self)
    refine ⟨(fun e h => nomatch h), fun q hq => ?_⟩
    cases hq
    refine ⟨b', ?_, h2⟩
    show (o.exec t false b >>= _) = _
    rw [h1]; rfl
  | rebuffer =>
    refine ⟨(fun e h => nomatch h), fun q hq => ?_⟩
    cases hq
    exact ⟨b, rfl, A⟩
  | array n os =>
    have hx : t.exec (.array n os) b = ((UmpKind.streamText t).tryRebufferArray n b >>=
      fun a => Op.execAll t true os a >>= fun x => .ok x.1) := rfl
    have hp : p.step t (.array n os) = if p.words ≤ n then
      .ok ⟨(os.filter (Op.Fits t (some n))).foldl (Numbers.step t true) ⟨n / 4, p.numbers.blocks⟩,
        (lastText (os.filter (Op.Fits t (some n)))).getD p.text, n⟩
      else .error .bufferOverflow := rfl
    rw [hx, hp, rebuffer_zeros _ b n, A.len]
    by_cases h : p.words ≤ n
    · rw [if_pos h, if_pos h]
      refine ⟨(fun e h => nomatch h), fun q hq => ?_⟩
      cases hq
      have A' := A.zeros K (n - p.words)
      rw [show p.words + (n - p.words) = n by omega] at A'
      obtain ⟨b', e1, F⟩ := Follows.steps K os hos (A'.follows K)
      have T := Follows.tail K os hos (A'.follows K) _ e1
      have Z := A'.tail.same T
      have hr : StreamText.room true (b ++ List.replicate (n - p.words) 0) = some n :=
        congrArg some A'.len
      rw [hr] at F
      have hlen : b'.length = n := (F.same rfl).trans A'.len
      have hlast : (lastText (os.filter (Op.Fits t (some n)))).or (some p.text) =
          some ((lastText (os.filter (Op.Fits t (some n)))).getD p.text) := by
        cases lastText (os.filter (Op.Fits t (some n))) <;> rfl
      obtain ⟨H, -⟩ := F.after _ hlast
      refine ⟨b', ?_, H, hlen, F.packets.trans (by rw [hlen]), Z, fun h1 j => ?_⟩
      · rw [Res.ok_bind, e1]; rfl
      · by_cases hj : j < n / 4
        · exact F.blocks h1 j fun _ => by rw [hlen]; omega
        · have hq := steps_quiet (t := t) (os.filter (Op.Fits t (some n))) ⟨n / 4, p.numbers.blocks⟩
            (fun i (hi : n / 4 ≤ i) => by
              show p.numbers.blocks i = 0
              rw [← A.blocks h1]
              exact ZeroTail.blockAt A.tail (by rw [A.len]; omega))
          rw [hq.2 j (by show n / 4 ≤ j; omega)]
          exact ZeroTail.blockAt Z (by rw [hlen]; omega)
    · rw [if_neg h, if_neg h]
      refine ⟨fun e he => ?_, (fun q hq => nomatch hq)⟩
      cases he
      rfl
  | send =>
    have hx : t.exec .send b = (data b >>= fun d => t.tryFrom d) := rfl
    have hp : p.step t .send = if t = .functionBlockName ∧
        ∃ j, j < t.packetsOf p.text ∧ p.numbers.blocks j ≠ p.numbers.blocks 0 then
      .error .invalidData
      else .ok ⟨⟨t.packetsOf p.text, fun j => if j < t.packetsOf p.text then p.numbers.blocks j else 0⟩,
        p.text, 4 * t.packetsOf p.text⟩ := rfl
    have H := A.holds
    have hs := H.sent K
    have hw := H.whole
    rw [hx, hp, H.data_eq K, Res.ok_bind, packetsOf_eq K]
    by_cases h : t = .functionBlockName ∧ ∃ j, j < textPackets (14 - t.offset) (strBytes p.text).length ∧
        p.numbers.blocks j ≠ p.numbers.blocks 0
    · rw [if_pos h]
      refine ⟨fun e he => ?_, (fun q hq => nomatch hq)⟩
      cases he
      rcases silent_cases (StreamText.told_silent K _) (tryFrom_ne_panic K _) with ⟨d, hd⟩ | hd
      · have := tryFrom_self hd
        subst this
        obtain ⟨h1, j, h2, h3⟩ := h
        exact absurd (hs.mp hd (hoff.mpr h1) j h2) h3
      · exact hd
    · rw [if_neg h]
      refine ⟨(fun e h => nomatch h), fun q hq => ?_⟩
      cases hq
      have hl : (b.take (4 * textPackets (14 - t.offset) (strBytes p.text).length)).length =
          4 * textPackets (14 - t.offset) (strBytes p.text).length := by
        rw [List.length_take]
        omega
      refine ⟨_, hs.mpr fun h1 j hj => ?_, (H.take K).congr_block fun j hj => ?_, hl, ?_,
        zeroTail_whole hl, fun h1 j => ?_⟩
      · exact Classical.byContradiction fun hne => h ⟨hoff.mp h1, j, hj, hne⟩
      · show _ = if j < _ then _ else _
        rw [if_pos hj]
      · show textPackets (14 - t.offset) (strBytes p.text).length =
          4 * textPackets (14 - t.offset) (strBytes p.text).length / 4
        omega
      · show _ = if j < _ then p.numbers.blocks j else 0
        by_cases hj : j < textPackets (14 - t.offset) (strBytes p.text).length
        · rw [if_pos hj, ← A.blocks h1]
          unfold blockAt
          rw [FlexText.octetAt_take _ (by omega)]
        · rw [if_neg hj]
          unfold blockAt
          rw [octetAt_none (by rw [List.length_take]; omega)]; rfl

theorem At.legs (K : t.Known) (hoff : t.offset = 1 ↔ t = .functionBlockName) :
    ∀ (ls : List (TextLeg Op)) {p : Place} {b : Buf .ump}, At t p b →
    (t.offset = 1 ∨ ∀ l ∈ ls, ∀ o ∈ legCalls l, ∃ s, o = .setText s) →
    (∀ e, p.steps t ls = .error e → t.execLegs ls b = .err e) ∧
    ∀ p', p.steps t ls = .ok p' → ∃ b', t.execLegs ls b = .ok b' ∧ At t p' b'
  | [], p, b, A, _ => ⟨(fun e h => nomatch h), fun q h => by cases h; exact ⟨b, rfl, A⟩⟩
  | l :: ls, p, b, A, hos => by
    obtain ⟨h1, h2⟩ := A.leg K hoff l (hos.imp id fun h => h l List.mem_cons_self)
    have hx : t.execLegs (l :: ls) b = (t.exec l b >>= fun y => t.execLegs ls y) := rfl
    have hp : p.steps t (l :: ls) = (p.step t l >>= fun p => p.steps t ls) := rfl
    rw [hx, hp]
    cases hs : p.step t l with
    | error e =>
      rw [h1 e hs]
      refine ⟨fun e' he => ?_, (fun q hq => nomatch hq)⟩
      cases he
      rfl
    | ok q =>
      obtain ⟨y, h3, h4⟩ := h2 q hs
      rw [h3]
      exact At.legs K hoff ls h4 (hos.imp id fun h l hl => h l (List.mem_cons_of_mem _ hl))

end StreamText

open StreamText in
/-- C72: the same for the stream text messages.  The receiver that does not take the message is
one that gets a function block name whose packets have different numbers (C32). -/
theorem C72_stream_text_partial (t : StreamText) (ht : t ∈ StreamText.all) (b : Buf .ump)
    (B : t.Backs b) (s : String) (ls : List (TextLeg StreamText.Op))
    (hos : t = .functionBlockName ∨ ∀ l ∈ ls, ∀ o ∈ legCalls l, ∃ s, o = .setText s) (start : Place)
    (hs : start = ⟨(numbersOf b).step t false (.setText s), s, 4 * t.packetsOf s⟩) :
    (∀ e, start.steps t ls = .error e → t.execLegs (.call (.setText s) :: ls) b = .err e) ∧
    ∀ p, start.steps t ls = .ok p → ∃ b', t.execLegs (.call (.setText s) :: ls) b = .ok b' ∧
      b'.length = p.words ∧
      (t = .functionBlockName → StreamText.block b' = .ok (p.numbers.blocks 0)) ∧
      t.text b' = .ok (withoutNul p.text) ∧
      ∃ d, StreamText.data b' = .ok d ∧ t.IsEncoding d p.numbers.blocks p.text := by
  have K : t.Known := known_of_mem ht
  have hoff : t.offset = 1 ↔ t = .functionBlockName := by
    simp only [StreamText.all, List.mem_cons, List.not_mem_nil, or_false] at ht
    rcases ht with rfl | rfl | rfl <;> decide
  have F := numbersOf_follows false t b B
  obtain ⟨b1, f1, f2, H⟩ := setText_holds K B s
  have hc : textPackets t.capacity (utf8 s).length =
      textPackets (14 - t.offset) (strBytes s).length := by rw [K.capacity_eq, length_utf8]
  have A : At t start b1 := by
    subst hs
    refine ⟨⟨H.whole, H.head, fun h1 j hj => ?_, H.slot⟩, ?_, ?_, zeroTail_whole f2, fun h1 j => ?_⟩
    · rw [H.block h1 j hj, F.blocks h1 j (fun h => nomatch h)]
      show _ = some (if j < textPackets t.capacity (utf8 s).length then (numbersOf b).blocks j else 0)
      rw [hc, if_pos hj]
    · rw [f2]
      show _ = 4 * textPackets t.capacity (utf8 s).length
      rw [hc]
    · show textPackets t.capacity (utf8 s).length = 4 * textPackets t.capacity (utf8 s).length / 4
      omega
    · show _ = if j < textPackets t.capacity (utf8 s).length then (numbersOf b).blocks j else 0
      rw [setText_block K B h1 f1, hc, F.blocks h1 j (fun h => nomatch h)]
  have hx : t.execLegs (.call (.setText s) :: ls) b = t.execLegs ls b1 := by
    show ((t.setText b s >>= fun b' => Res.ok (b', (none : Option Error))) >>= fun x =>
      Res.ok x.1) >>= _ = _
    rw [f1]; rfl
  rw [hx]
  obtain ⟨h1, h2⟩ := At.legs K hoff ls A (hos.imp hoff.mpr id)
  refine ⟨h1, fun p hp => ?_⟩
  obtain ⟨b', h3, A'⟩ := h2 p hp
  obtain ⟨d, d1, d2, -⟩ := StreamText.isEncoding_of_holds K A'.holds
  exact ⟨b', h3, A'.len, fun h => A'.holds.block_eq K (hoff.mpr h), A'.holds.text_shown K, d, d2, d1⟩

-- A function block name grows in an array: its second packet has number 0 and a receiver refuses
-- it; set again, the number reaches both packets.
example : StreamText.functionBlockName.execLegs [.call (.setText "a"), .call (.setBlock 5),
      .array 8 [.setText "abcdefghijklmn"], .send] [0xF0120061, 0, 0, 0] = .err .invalidData ∧
    StreamText.functionBlockName.execLegs [.call (.setText "a"), .call (.setBlock 5),
      .array 11 [.setText "abcdefghijklmn"], .call (.setBlock 6), .send] [0xF0120061, 0, 0, 0] =
    .ok [0xF4120661, 0x62636465, 0x66676869, 0x6A6B6C6D, 0xFC12066E, 0, 0, 0] := by
  exact ⟨by decide +kernel, by decide +kernel⟩

example : ∃ b', StreamText.endpointName.execLegs [.call (.setText "abc"), .array 18 []]
      [0xF0036162, 0, 0, 0] = .ok b' ∧ StreamText.endpointName.text b' = .ok "abc" := by
  obtain ⟨b', h1, -, -, h2, -⟩ := (C72_stream_text_partial .endpointName (by decide +kernel)
    [0xF0036162, 0, 0, 0] ⟨by decide, by decide, by decide⟩ "abc" [.array 18 []]
    (.inr (by simp [StreamText.legCalls])) _ rfl).2
    ⟨⟨4, ((StreamText.numbersOf [0xF0036162, 0, 0, 0]).step .endpointName false (.setText "abc")).blocks⟩,
      "abc", 18⟩ (by
      have h : 4 * StreamText.endpointName.packetsOf "abc" ≤ 18 := by
        decide +kernel
      simp only [StreamText.Place.steps, StreamText.Place.step, StreamText.Numbers.step,
        Bool.false_eq_true, if_false, if_pos h]
      rfl)
  exact ⟨b', h1, h2.trans (by decide +kernel)⟩

end Midi2
