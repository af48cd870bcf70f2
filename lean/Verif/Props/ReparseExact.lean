import Verif.Props.Reparse
import Verif.Props.Truncated

/-!
# C53 exactly: when what `data()` returns is the message

C53 fails in the code for some accepted slices.  The theorems below say for every accepted slice
whether it does.
-/

namespace Midi2

theorem stream_has_formats : Msg.all.all (fun d =>
    d.props.all (fun p => match p.2 with
      | .umpType t => decide (t ≠ 15) || d.props.any (fun q => match q.2 with
          | .streamFormats => true | _ => false)
      | _ => true) &&
    d.props.any (fun p => match p.2 with | .umpType _ => true | _ => false)) = true := by
  decide +kernel

/-- A fixed-size message whose first word has type 15 checks the formats of its packets. -/
theorem streamFormats_mem {d : MsgDesc} (hd : d ∈ Msg.all) {b : Buf .ump}
    (hw : d.WellFormed .ump b) (h15 : fieldAt b 0 0 4 = some 15) :
    ∃ n, (n, Fld.streamFormats) ∈ d.props := by
  have h := List.all_eq_true.mp stream_has_formats d hd
  rw [Bool.and_eq_true] at h
  obtain ⟨p, hp, hp'⟩ := List.any_eq_true.mp h.2
  have h1 := List.all_eq_true.mp h.1 p hp
  have hL := hw.2 p hp
  cases hf : p.2 with
  | umpType t =>
    rw [hf] at h1 hL
    simp only [Bool.or_eq_true, decide_eq_true_eq] at h1
    rcases h1 with h1 | h1
    · exfalso
      have hL : fieldAt b 0 0 4 = some t.toNat := hL
      rw [h15] at hL
      have := Option.some.inj hL
      exact h1 (BitVec.eq_of_toNat_eq this.symm)
    · obtain ⟨q, hq, hq'⟩ := List.any_eq_true.mp h1
      obtain ⟨n, f⟩ := q
      cases f with
      | streamFormats => exact ⟨n, hq⟩
      | _ => cases hq'
  | _ => rw [hf] at hp'; cases hp'

/-- C53 for the fixed-size message types (UMP), exactly: `data()` of what `data()` returned is
the same, and so is every getter; it is accepted exactly if it is no stream packet or one marked
as complete, and refused otherwise. -/
theorem C53_fixed_ump_exactly {d : MsgDesc} (hd : d ∈ Msg.all) (b x : Buf .ump)
    (hok : d.tryFrom .ump b = .ok b) (hx : d.data .ump b = .ok x) :
    ((fieldAt b 0 0 4 = some 15 → fieldAt b 0 4 2 = some 0) → d.tryFrom .ump x = .ok x) ∧
    (¬ (fieldAt b 0 0 4 = some 15 → fieldAt b 0 4 2 = some 0) →
      d.tryFrom .ump x = .err .invalidData) ∧
    d.data .ump x = .ok x ∧ ∀ n f, (n, f) ∈ d.props → f.read .ump x = f.read .ump b := by
  refine ⟨fun hs => (C53_fixed_ump_partial hd b x hok hx hs).1, fun hs => ?_, ?_⟩
  · obtain ⟨hl, hv⟩ := (tryFrom_iff d .ump b).mp hok
    have hl : d.umpSize ≤ b.length := hl
    rw [data_ok (m := .ump) hl] at hx
    cases hx
    have hwf : d.WellFormed .ump b := by
      by_cases h : d.WellFormed .ump b
      · exact h
      · rw [(C07_ump_accepts_exactly hd b).2 h] at hok; cases hok
    have hsz : ∀ d ∈ Msg.all, 0 < d.umpSize ∧ d.umpSize ≤ 4 := by decide +kernel
    obtain ⟨hsz0, hsz4⟩ := hsz d hd
    have hlen : (b.take d.umpSize).length = d.umpSize := by rw [List.length_take]; omega
    refine (C07_ump_accepts_exactly hd (b.take d.umpSize)).2 fun hw => hs fun h15 => ?_
    have h15' : fieldAt (b.take d.umpSize) 0 0 4 = some 15 := by rw [fieldAt_take b hsz0]; exact h15
    obtain ⟨n, hn⟩ := streamFormats_mem hd hwf h15
    have hL : SeqOk _ := hw.2 _ hn
    have hb : 0 < b.length := by omega
    have e1 : packetHeads 4 (b.take d.umpSize) = [b[0]] := by
      unfold packetHeads
      rw [hlen, show (d.umpSize + 4 - 1) / 4 = 1 by omega]
      show [((b.take d.umpSize)[0]?).getD 0] = _
      rw [List.getElem?_take_of_lt hsz0, List.getElem?_eq_getElem hb]; rfl
    unfold fieldAt at h15 ⊢
    rw [List.getElem?_eq_getElem hb] at h15 ⊢
    have h15 : field b[0] 0 4 = 15 := Option.some.inj h15
    rw [e1] at hL
    simp [h15] at hL
    rcases hL with h | ⟨n, h⟩
    · exact congrArg some (by simpa using h)
    · cases n <;> simp at h
  · obtain ⟨hl, hv⟩ := (tryFrom_iff d .ump b).mp hok
    have hl : d.umpSize ≤ b.length := hl
    rw [data_ok (m := .ump) hl] at hx
    cases hx
    have hfit := List.all_eq_true.mp table_ump_fits d hd
    have hlen : (b.take d.umpSize).length = d.umpSize := by rw [List.length_take]; omega
    have hsplit : b.take d.umpSize ++ b.drop d.umpSize = b := List.take_append_drop _ _
    refine ⟨?_, fun n f hf => ?_⟩
    · show d.data .ump (b.take d.umpSize) = .ok (b.take d.umpSize)
      rw [data_ok (m := .ump) (show d.umpSize ≤ _ by omega)]
      show Res.ok ((b.take d.umpSize).take d.umpSize) = _
      rw [List.take_take, Nat.min_self]
    · have := Fld.read_append (b := b.take d.umpSize) (MsgDesc.fits_mem hfit hf) (by omega)
        (b.drop d.umpSize)
      rw [hsplit] at this
      exact this.symm

example : Msg.streamStartOfClip.tryFrom .ump [0xF4200000, 0, 0, 0] = .err .invalidData :=
  (C53_fixed_ump_exactly (d := Msg.streamStartOfClip) (by decide +kernel)
    [0xF4200000, 0, 0, 0, 0xFC200000, 0, 0, 0] [0xF4200000, 0, 0, 0] (by decide +kernel)
    (by decide +kernel)).2.1 (by decide)

/-- C53 for flex data text, exactly: what `data()` returns has the same group and channel; it is
accepted exactly if its own text octets are text, and then it is its own `data()` and its text is
that of those octets; otherwise it is refused. -/
theorem C53_flex_text_exactly (t : FlexText) (b x : Buf .ump) (hok : t.tryFrom b = .ok b)
    (hx : FlexText.data b = .ok x) :
    (∀ s : String, utf8 s = (FlexText.slots x).dropLast.filter (· ≠ 0) →
      t.tryFrom x = .ok x ∧ FlexText.data x = .ok x ∧ FlexText.text x = .ok s) ∧
    ((¬ ∃ s : String, utf8 s = (FlexText.slots x).dropLast.filter (· ≠ 0)) →
      ∃ e, t.tryFrom x = .err e) ∧
    FlexText.group x = FlexText.group b ∧ FlexText.channel x = FlexText.channel b := by
  have hw : 4 * (FlexText.run b).length ≤ b.length := by
    by_cases h : 4 * (FlexText.run b).length ≤ b.length
    · exact h
    · rw [((C06_flex_text_exactly t b hok).2 h).1] at hx; cases hx
  obtain ⟨d, ps, h1, h2, _⟩ := C06_flex_text_data_partial t b hok hw
  rw [hx] at h1
  cases h1
  have A := (FlexText.tryFrom_iff t b).mp hok
  have hlen := A.len
  have hn : 1 ≤ (FlexText.run b).length := by
    have hf := A.formats
    cases hr : FlexText.run b with
    | nil => rw [hr] at hf; rcases hf with h | ⟨n, h⟩ <;> cases h
    | cons _ _ => simp
  have hrun : FlexText.run (b.take (4 * (FlexText.run b).length)) = FlexText.run b :=
    heads_take (by omega) b _ hw
  have hxl : (b.take (4 * (FlexText.run b).length)).length = 4 * (FlexText.run b).length := by
    rw [List.length_take]; omega
  have hat : at' x 0 = at' b 0 := by
    unfold at'
    rw [h2, List.getElem?_take_of_lt (by omega)]
  have hacc : (∃ s : String, utf8 s = (FlexText.slots x).dropLast.filter (· ≠ 0)) → t.Accepts x := by
    intro hs
    rw [h2] at hs ⊢
    refine ⟨by omega, by rw [hrun]; exact A.formats, fun j h h' => ?_, fun j h => ?_,
      fun j h => ?_, hs⟩
    · rw [fieldAt_take b (by omega), fieldAt_take b (by omega)]
      exact A.groups j (by rw [hrun] at h; exact h) (by omega)
    · rw [fieldAt_take b (by omega)]
      exact A.banks j (by omega)
    · rw [fieldAt_take b (by omega)]
      exact A.statuses j (by omega)
  refine ⟨fun s hs => ?_, fun hs => ?_, ?_, ?_⟩
  · have hok' := (FlexText.tryFrom_iff t x).mpr (hacc ⟨s, hs⟩)
    obtain ⟨d', _, h1', h2', _⟩ := C06_flex_text_data_partial t x hok' (by rw [h2, hrun]; omega)
    obtain ⟨_, _, s', l', c1, _, _, c2⟩ := C06_flex_text_getters t x hok'
    refine ⟨hok', ?_, ?_⟩
    · rw [h1', h2']
      conv => lhs; rw [h2, hrun, List.take_take, Nat.min_self]
      rw [h2]
    · rw [c1, utf8_inj (c2.trans hs.symm)]
  · exact (C05_flex_text_total t x).resolve_left fun h => hs ((FlexText.tryFrom_iff t x).mp h).text
  · unfold FlexText.group
    rw [hat]
  · unfold FlexText.channel
    rw [hat]

/-- C53 for stream text, exactly, in the same way. -/
theorem C53_stream_text_exactly (t : StreamText) (ht : t ∈ StreamText.all) (b x : Buf .ump)
    (hok : t.tryFrom b = .ok b) (hx : StreamText.data b = .ok x) :
    (∀ s : String, utf8 s = (t.slots x).filter (· ≠ 0) →
      t.tryFrom x = .ok x ∧ StreamText.data x = .ok x ∧ t.text x = .ok s) ∧
    ((¬ ∃ s : String, utf8 s = (t.slots x).filter (· ≠ 0)) → ∃ e, t.tryFrom x = .err e) ∧
    StreamText.block x = StreamText.block b := by
  have K := StreamText.known_of_mem ht
  have hw : 4 * (StreamText.run b).length ≤ b.length := by
    by_cases h : 4 * (StreamText.run b).length ≤ b.length
    · exact h
    · rw [((C06_stream_text_exactly t ht b hok).2 h).1] at hx; cases hx
  obtain ⟨d, ps, h1, h2, _⟩ := C06_stream_text_data_partial t ht b hok hw
  rw [hx] at h1
  cases h1
  have A := (StreamText.tryFrom_iff K b).mp hok
  have hlen := A.len
  have hn : 1 ≤ (StreamText.run b).length := by
    have hf := A.formats
    cases hr : StreamText.run b with
    | nil => rw [hr] at hf; rcases hf with h | ⟨n, h⟩ <;> cases h
    | cons _ _ => simp
  have hrun : StreamText.run (b.take (4 * (StreamText.run b).length)) = StreamText.run b :=
    heads_take (by omega) b _ hw
  have hxl : (b.take (4 * (StreamText.run b).length)).length = 4 * (StreamText.run b).length := by
    rw [List.length_take]; omega
  have hat : at' x 0 = at' b 0 := by
    unfold at'
    rw [h2, List.getElem?_take_of_lt (by omega)]
  have hacc : (∃ s : String, utf8 s = (t.slots x).filter (· ≠ 0)) → t.Accepts x := by
    intro hs
    rw [h2] at hs ⊢
    refine ⟨by omega, by rw [hrun]; exact A.formats, fun j h => ?_, fun ho j h => ?_, hs⟩
    · rw [fieldAt_take b (by omega)]
      exact A.statuses j (by omega)
    · rw [fieldAt_take b (by omega), fieldAt_take b (by omega)]
      exact A.blocks ho j (by omega)
  refine ⟨fun s hs => ?_, fun hs => ?_, ?_⟩
  · have hok' := (StreamText.tryFrom_iff K x).mpr (hacc ⟨s, hs⟩)
    obtain ⟨d', _, h1', h2', _⟩ :=
      C06_stream_text_data_partial t ht x hok' (by rw [h2, hrun]; omega)
    obtain ⟨_, s', l', c1, _, _, c2⟩ := C06_stream_text_getters t ht x hok'
    refine ⟨hok', ?_, ?_⟩
    · rw [h1', h2']
      conv => lhs; rw [h2, hrun, List.take_take, Nat.min_self]
      rw [h2]
    · rw [c1, utf8_inj (c2.trans hs.symm)]
  · exact (C05_stream_text_total t ht x).resolve_left fun h => hs ((StreamText.tryFrom_iff K x).mp h).text
  · unfold StreamText.block
    rw [hat]
/-- When a message can be told from its own words alone: a stream message is marked as complete or
is a text, and the octets of a text message are text. -/
def UmpKind.SelfContained : UmpKind → List (BitVec 32) → Prop
  | .fixed _, x => fieldAt x 0 0 4 = some 15 → fieldAt x 0 4 2 = some 0
  | .sysex _, _ => True
  | .flexText _, x => ∃ s : String, utf8 s = (FlexText.slots x).dropLast.filter (· ≠ 0)
  | .streamText t, x => ∃ s : String, utf8 s = (t.slots x).filter (· ≠ 0)

example : StreamText.endpointName.text [0xF0036162, 0, 0, 0] = .ok "ab" :=
  ((C53_stream_text_exactly .endpointName (by decide +kernel) [0xF0036162, 0, 0, 0, 0x20903C40]
    [0xF0036162, 0, 0, 0] (by decide +kernel) (by decide +kernel)).1 "ab" (by decide +kernel)).2.2

/-- The first word settles the variant. -/
theorem header_unique {k k' : UmpKind} {h h' : Header} (he : (k, h) ∈ umpTable)
    (he' : (k', h') ∈ umpTable) {b : Buf .ump} (ho : h.Of b) (ho' : h'.Of b) : k = k' := by
  have shape : ∀ e ∈ umpTable, ∀ e' ∈ umpTable, e.2.type = e'.2.type →
      e.2.pos = e'.2.pos ∧ e.2.width = e'.2.width ∧ (e.2.code = e'.2.code → e.1 = e'.1) := by
    decide +kernel
  have ht : h.type = h'.type := Option.some.inj (ho.1.symm.trans ho'.1)
  obtain ⟨s1, s2, s3⟩ := shape _ he _ he' ht
  have s1 : h.pos = h'.pos := s1
  have s2 : h.width = h'.width := s2
  have h2 := ho'.2
  rw [← s1, ← s2, ho.2] at h2
  exact s3 (Option.some.inj h2)

/-- C53 for `UmpMessage`, exactly: what `data()` returns is its own `data()`, and the parser takes
it for the same variant, unless it is a stream packet not marked as complete or a text message
whose own octets are no text; these the parser refuses. -/
theorem C53_ump_message_exactly (b b' x : Buf .ump) (k : UmpKind)
    (hok : UmpMessage.tryFrom b = .ok (k, b')) (hx : UmpMessage.data (k, b') = .ok x) :
    (k.SelfContained x → UmpMessage.tryFrom x = .ok (k, x) ∧ UmpMessage.data (k, x) = .ok x) ∧
    (¬ k.SelfContained x → ∃ e, UmpMessage.tryFrom x = .err e) := by
  obtain ⟨rfl, hk, h, he, ho⟩ := C10_ump_variant b b' k hok
  have hxd : k.data b' = .ok x := hx
  have hpre := UmpKind.data_is_prefix k hxd
  have hne : x ≠ [] := by
    by_cases hc : k.Complete b'
    · obtain ⟨d, ps, h1, _, h2, _⟩ := C33_ump_message_packets_partial b' b' k hok hc
      rw [hx] at h1
      cases h1
      exact h2
    · rw [((C06_ump_message_exactly b' b' k hok).2 hc).1] at hx; cases hx
  have h0 : x[0]? = b'[0]? := by
    obtain ⟨y, hy⟩ := hpre
    rw [← hy, List.getElem?_append_left (List.length_pos_iff.mpr hne)]
  have hf0 : ∀ p w, fieldAt x 0 p w = fieldAt b' 0 p w := by
    intro p w
    unfold fieldAt
    rw [h0]
  have hox : h.Of x := by
    unfold Header.Of at ho ⊢
    rw [hf0, hf0]
    exact ho
  have key : (k.SelfContained x → k.tryFrom x = .ok x ∧ k.data x = .ok x) ∧
      (¬ k.SelfContained x → ∃ e, k.tryFrom x = .err e) := by
    cases k with
    | fixed d =>
      have hall : umpTable.all (fun e => match e.1 with
          | .fixed d => decide (d ∈ Msg.all) | _ => true) = true := by decide +kernel
      have hd : d ∈ Msg.all := by simpa using List.all_eq_true.mp hall _ he
      obtain ⟨h1, h2, h3, _⟩ := C53_fixed_ump_exactly hd b' x hk hx
      rw [← hf0, ← hf0] at h1 h2
      exact ⟨fun h => ⟨h1 h, h3⟩, fun h => ⟨_, h2 h⟩⟩
    | sysex k =>
      have hu : k.layout.Untruncated b' := by
        by_cases h : k.layout.Untruncated b'
        · exact h
        · have hx' : k.data b' = .ok x := hx
          rw [((C06_sysex_exactly k b' hk).2 h).1] at hx'; cases hx'
      obtain ⟨h1, h2, _⟩ := C53_sysex_partial k b' x hk hu hx
      exact ⟨fun _ => ⟨h1, h2⟩, fun h => absurd trivial h⟩
    | flexText t =>
      obtain ⟨h1, h2, _⟩ := C53_flex_text_exactly t b' x hk hx
      exact ⟨fun ⟨s, h⟩ => ⟨(h1 s h).1, (h1 s h).2.1⟩, h2⟩
    | streamText t =>
      have hall : umpTable.all (fun e => match e.1 with
          | .streamText t => decide (t ∈ StreamText.all) | _ => true) = true := by decide +kernel
      have ht : t ∈ StreamText.all := by simpa using List.all_eq_true.mp hall _ he
      obtain ⟨h1, h2, _⟩ := C53_stream_text_exactly t ht b' x hk hx
      exact ⟨fun ⟨s, h⟩ => ⟨(h1 s h).1, (h1 s h).2.1⟩, h2⟩
  refine ⟨fun hs => ?_, fun hs => ?_⟩
  · obtain ⟨h', hc', ho', _⟩ := UmpMessage.tryFrom_iff.mp hok
    refine ⟨UmpMessage.tryFrom_iff.mpr ⟨h', hc', ?_, (key.1 hs).1⟩, (key.1 hs).2⟩
    unfold Header.Of at ho' ⊢
    rw [hf0, hf0]
    exact ho'
  · rcases (C05_ump_enums_total x).1 with ⟨k', hk'⟩ | h
    · exfalso
      obtain ⟨_, hk2, h', he', ho'⟩ := C10_ump_variant x x k' hk'
      cases header_unique he he' hox ho'
      obtain ⟨e, h⟩ := key.2 hs
      rw [h] at hk2
      cases hk2
    · exact h

example : ∃ e, UmpMessage.tryFrom [0xF4200000, 0, 0, 0] = .err e :=
  (C53_ump_message_exactly [0xF4200000, 0, 0, 0, 0xFC200000, 0, 0, 0]
    [0xF4200000, 0, 0, 0, 0xFC200000, 0, 0, 0] [0xF4200000, 0, 0, 0]
    (.fixed Msg.streamStartOfClip) (by decide +kernel) (by decide +kernel)).2
    (by show ¬ (_ → _); decide)

example : FlexText.text [0xD0100104, 0x61620000, 0, 0] = .ok "ab" :=
  ((C53_flex_text_exactly ⟨"CopyrightNotice", 1, 4⟩
    [0xD0100104, 0x61620000, 0, 0, 0x20900104, 0x63640000, 0, 0] [0xD0100104, 0x61620000, 0, 0]
    (by decide +kernel) (by decide +kernel)).1 "ab" (by decide +kernel)).2.2

/-! ## C10 exactly -/

/-- C10, exactly: a slice that a type's own parser accepts is given by `UmpMessage::try_from` as a
message of that type, unless the type is one of the three misfiled ones, or it is a
`FunctionBlockDiscovery` whose status is that of another message; those are refused. -/
theorem C10_ump_dispatch_exactly {k : UmpKind} {h : Header} (he : (k, h) ∈ umpTable) (b : Buf .ump)
    (hok : k.tryFrom b = .ok b) :
    (k ∉ misfiled ∧ (k = .fixed Msg.streamFunctionBlockDiscovery → fieldAt b 0 6 10 = some 0x10) →
      UmpMessage.tryFrom b = .ok (k, b)) ∧
    (¬ (k ∉ misfiled ∧ (k = .fixed Msg.streamFunctionBlockDiscovery → fieldAt b 0 6 10 = some 0x10)) →
      ∃ e, UmpMessage.tryFrom b = .err e) := by
  have hfb : ∀ e ∈ umpTable, e.1 = .fixed Msg.streamFunctionBlockDiscovery →
      e.2.pos = 6 ∧ e.2.width = 10 ∧ e.2.code = 0x10 := by decide +kernel
  constructor
  · rintro ⟨hm, hs⟩
    refine UmpMessage.tryFrom_iff.mpr ⟨h, (code_table_complete _ he).resolve_right hm, ?_, hok⟩
    by_cases hf : k = .fixed Msg.streamFunctionBlockDiscovery
    · obtain ⟨e1, e2, e3⟩ := hfb _ he hf
      exact ⟨header_type he hok, by rw [e1, e2, e3]; exact hs hf⟩
    · have : ∀ e ∈ umpTable, e.1 = .fixed Msg.streamFunctionBlockDiscovery ∨
          e.1.room = 0 := by decide +kernel
      exact accepted_header he (by rw [(this _ he).resolve_left hf]; omega) hok
  · intro hn
    rcases (C05_ump_enums_total b).1 with ⟨k', hk'⟩ | h
    · exfalso
      obtain ⟨_, hk2, h', he', ho'⟩ := C10_ump_variant b b k' hk'
      cases C10_ump_unique he he' b hok hk2
      refine hn ⟨fun hm => misfiled_never hm hk', fun hf => ?_⟩
      obtain ⟨e1, e2, e3⟩ := hfb _ he' hf
      have := ho'.2
      rw [e1, e2, e3] at this
      exact this
    · exact h

example : UmpMessage.tryFrom [0xF0100103] = .ok (.fixed Msg.streamFunctionBlockDiscovery, [0xF0100103]) :=
  (C10_ump_dispatch_exactly (k := .fixed Msg.streamFunctionBlockDiscovery) (h := ⟨15, 6, 10, 0x10⟩)
    (by decide +kernel) [0xF0100103] (by decide +kernel)).1 ⟨by decide, fun _ => by decide⟩

end Midi2
