import Verif.Props.Convert
import Verif.Props.Construct
import Verif.Props.Parse

/-!
# C02, C06, C08, C09, C13 over bytes, without exceptions

The theorems with suffix `_partial` leave out `SongPositionPointer` over two bytes.  The ones
here say for every message type and every buffer whether the call panics.
-/

namespace Midi2

/-- A `SongPositionPointer` in exactly two bytes: its declared minimum size, one byte less than
its position needs. -/
def ShortPointer (d : MsgDesc) (b : Buf .bytes) : Prop :=
  d.name = "system_common::SongPositionPointer" ∧ b.length = 2

/-- The description with that name. -/
theorem shortPointer_eq {d : MsgDesc} (hd : d ∈ Msg.hybridAll)
    (hn : d.name = "system_common::SongPositionPointer") : d = Msg.sysSongPositionPointer := by
  have : ∀ d ∈ Msg.hybridAll, d.name = "system_common::SongPositionPointer" →
      d = Msg.sysSongPositionPointer := by decide +kernel
  exact this d hd hn

theorem not_short {d : MsgDesc} (hd : d ∈ Msg.hybridAll) {b : Buf .bytes}
    (hb : d.minSize .bytes ≤ b.length) (h : ¬ ShortPointer d b) :
    d.name = "system_common::SongPositionPointer" → 3 ≤ b.length := by
  intro hn
  have e := shortPointer_eq hd hn
  subst e
  have : 2 ≤ b.length := hb
  have : b.length ≠ 2 := fun e => h ⟨hn, e⟩
  omega

/-- C02, exactly: setting a property and getting it back works for every property of every type
in every buffer of at least the minimum size, except for the position of a two-byte
`SongPositionPointer`, whose setter panics. -/
theorem C02_bytes_set_get_exactly {d : MsgDesc} (hd : d ∈ Msg.hybridAll) {n : String} {f : Fld}
    (hf : (n, f) ∈ d.props) (ha : f.accessible .bytes = true) (b : Buf .bytes)
    (hb : d.minSize .bytes ≤ b.length) (v : f.Ty) :
    (ShortPointer d b → f.write .bytes b v = .panic) ∧
    (¬ ShortPointer d b → ∃ b', f.write .bytes b v = .ok b' ∧ f.read .bytes b' = .ok v) := by
  refine ⟨fun h => ?_, fun h => C02_bytes_set_get_partial hd hf ha b hb (not_short hd hb h) v⟩
  obtain ⟨hn, hl⟩ := h
  have e := shortPointer_eq hd hn
  subst e
  simp only [Msg.sysSongPositionPointer, List.mem_cons, Prod.mk.injEq, List.not_mem_nil,
    or_false] at hf
  rcases hf with ⟨_, rfl⟩ | ⟨_, rfl⟩ | ⟨_, rfl⟩ | ⟨_, rfl⟩
  · cases ha
  · cases ha
  · cases ha
  · match b, hl with
    | [x, y], _ => rfl

example : ∃ b', Fld.write .bytes (.hybrid .u14 ⟨0, 0x7F, 0x7F⟩ ⟨0x00007F7F, 0, 0, 0⟩) [0xF2, 5, 1]
      (0x1234 : BitVec 14) = .ok b' ∧
    Fld.read .bytes (.hybrid .u14 ⟨0, 0x7F, 0x7F⟩ ⟨0x00007F7F, 0, 0, 0⟩) b' = .ok (0x1234 : BitVec 14) :=
  (C02_bytes_set_get_exactly (d := Msg.sysSongPositionPointer) (n := "position")
    (f := .hybrid .u14 ⟨0, 0x7F, 0x7F⟩ ⟨0x00007F7F, 0, 0, 0⟩) (by decide +kernel)
    (by decide +kernel) (by decide +kernel) [0xF2, 5, 1] (by decide) (0x1234 : BitVec 14)).2
    (by unfold ShortPointer; decide +kernel)

example : Fld.write .bytes (.hybrid .u14 ⟨0, 0x7F, 0x7F⟩ ⟨0x00007F7F, 0, 0, 0⟩) [0xF2, 5]
      (0x1234 : BitVec 14) = .panic :=
  (C02_bytes_set_get_exactly (d := Msg.sysSongPositionPointer) (n := "position")
    (f := .hybrid .u14 ⟨0, 0x7F, 0x7F⟩ ⟨0x00007F7F, 0, 0, 0⟩) (by decide +kernel)
    (by decide +kernel) (by decide +kernel) [0xF2, 5] (by decide) (0x1234 : BitVec 14)).1
    (by unfold ShortPointer; decide +kernel)

/-- C06, exactly: `data()` of every accepted message returns, and so does every getter, except
`position()` of a two-byte `SongPositionPointer`, which panics. -/
theorem C06_fixed_bytes_exactly {d : MsgDesc} (hd : d ∈ Msg.hybridAll) (b : Buf .bytes)
    (hok : d.tryFrom .bytes b = .ok b) :
    d.data .bytes b = .ok (b.take (d.minSize .bytes)) ∧
    ∀ n f, (n, f) ∈ d.props →
      (ShortPointer d b ∧ n = "position" → f.read .bytes b = .panic) ∧
      (¬ (ShortPointer d b ∧ n = "position") → ∃ v, f.read .bytes b = .ok v) := by
  obtain ⟨hl, hv⟩ := (tryFrom_iff d .bytes b).mp hok
  refine ⟨data_ok hl, fun n f hf => ?_⟩
  by_cases h : ShortPointer d b
  · obtain ⟨hn, hl2⟩ := h
    have e := shortPointer_eq hd hn
    subst e
    match b, hl2 with
    | [x, y], hl2 =>
      simp only [Msg.sysSongPositionPointer, List.mem_cons, Prod.mk.injEq, List.not_mem_nil,
        or_false] at hf
      rcases hf with ⟨rfl, rfl⟩ | ⟨rfl, rfl⟩ | ⟨rfl, rfl⟩ | ⟨rfl, rfl⟩
      · exact ⟨fun h => absurd h.2 (by decide), fun _ => ⟨_, rfl⟩⟩
      · exact ⟨fun h => absurd h.2 (by decide), fun _ => ⟨_, rfl⟩⟩
      · exact ⟨fun h => absurd h.2 (by decide), fun _ => ⟨_, rfl⟩⟩
      · exact ⟨fun _ => rfl, fun h => absurd ⟨⟨hn, hl2⟩, rfl⟩ h⟩
  · exact ⟨fun h' => absurd h'.1 h,
      fun _ => (C06_fixed_bytes_reads_partial hd b hok (not_short hd hl h)).1 n f hf⟩

example : Msg.cv1NoteOn.data .bytes [0x93, 0x3C, 0x7F, 9] = .ok [0x93, 0x3C, 0x7F] :=
  (C06_fixed_bytes_exactly (d := Msg.cv1NoteOn) (by decide +kernel) [0x93, 0x3C, 0x7F, 9]
    (by decide +kernel)).1

/-- C09, exactly: a sequence of setter calls on an accepted message panics if it is a two-byte
`SongPositionPointer` and there is a call; in all other cases the property holds. -/
theorem C09_bytes_history_exactly {d : MsgDesc} (hd : d ∈ Msg.hybridAll) (b : Buf .bytes)
    (hok : d.tryFrom .bytes b = .ok b) (calls : List SetCall)
    (hc : ∀ c ∈ calls, c.legal d .bytes) :
    (ShortPointer d b ∧ calls ≠ [] → runSetters .bytes calls b = .panic) ∧
    (¬ (ShortPointer d b ∧ calls ≠ []) →
      ∃ b', runSetters .bytes calls b = .ok b' ∧ b'.length = b.length ∧
        d.tryFrom .bytes b' = .ok b' ∧
        (∀ pre n f v post, calls = pre ++ ⟨n, f, v⟩ :: post → (∀ c ∈ post, c.name ≠ n) →
          f.read .bytes b' = .ok v) ∧
        (∀ n f, (n, f) ∈ d.props → (∀ c ∈ calls, c.name ≠ n) →
          f.read .bytes b' = f.read .bytes b)) := by
  have hl := ((tryFrom_iff d .bytes b).mp hok).1
  cases calls with
  | nil =>
    refine ⟨fun h => absurd rfl h.2, fun _ => ⟨b, rfl, rfl, hok, ?_, fun _ _ _ _ => rfl⟩⟩
    intro pre n f v post e
    cases pre <;> cases e
  | cons c cs =>
    refine ⟨fun h => ?_, fun h => ?_⟩
    · obtain ⟨c1, c2, _⟩ := hc c (List.mem_cons_self ..)
      have := (C02_bytes_set_get_exactly hd c1 c2 b hl c.val).1 h.1
      simp only [runSetters, this]
      rfl
    · have h : ¬ ShortPointer d b := fun h' => h ⟨h', by simp⟩
      exact C09_bytes_history_partial hd b hok (not_short hd hl h) _ hc

example : runSetters .bytes
    [⟨"position", .hybrid .u14 ⟨0, 0x7F, 0x7F⟩ ⟨0x00007F7F, 0, 0, 0⟩, (7 : BitVec 14)⟩] [0xF2, 5] = .panic :=
  (C09_bytes_history_exactly (d := Msg.sysSongPositionPointer) (by decide +kernel) [0xF2, 5]
    (by decide +kernel) _ (fun c hc => by
      obtain rfl := List.mem_singleton.mp hc; exact ⟨by decide +kernel, rfl, rfl⟩)).1
    ⟨by unfold ShortPointer; decide +kernel, List.cons_ne_nil _ _⟩

/-- C08, exactly: what the constructors do over bytes, for every type and buffer.  Over a
resizable buffer `SongPositionPointer` always panics; over a fixed one it panics when there are
just two bytes.  Everything else succeeds if the bytes fit. -/
theorem C08_fixed_bytes_exactly {d : MsgDesc} (hd : d ∈ Msg.hybridAll) (b : Buf .bytes) :
    (d.name = "system_common::SongPositionPointer" →
      d.newVec .bytes = .panic ∧ d.newWithBuffer .bytes b = .panic) ∧
    (d.name ≠ "system_common::SongPositionPointer" →
      ∃ x, d.newVec .bytes = .ok x ∧ d.newWithBuffer .bytes b = .ok x ∧
        x.length = d.minSize .bytes ∧ d.Fresh .bytes x) ∧
    (b.length < d.minSize .bytes → d.tryNewWithBuffer .bytes b = .err .bufferOverflow) ∧
    (ShortPointer d b → d.tryNewWithBuffer .bytes b = .panic) ∧
    (d.minSize .bytes ≤ b.length → ¬ ShortPointer d b →
      ∃ x, d.tryNewWithBuffer .bytes b = .ok x ∧ x.length = b.length ∧ d.Fresh .bytes x ∧
        x.drop d.room8 = b.drop d.room8) := by
  refine ⟨fun hn => ?_, fun hn => ?_, (C08_fixed_too_short d .bytes b 0).1, fun h => ?_,
    fun hb h => C08_fixed_bytes_partial hd b (room8_le hb (not_short hd hb h))⟩
  · have e := shortPointer_eq hd hn
    subst e
    refine ⟨rfl, ?_⟩
    match b with
    | [] => rfl
    | [x] => rfl
    | x :: y :: l =>
      have hv : vecResize (x :: y :: l) 2 = [x, y] := by
        unfold vecResize; simp
      show initProps .bytes Msg.sysSongPositionPointer.props
        (zeroPrefix (vecResize (x :: y :: l) 2) 2) = .panic
      rw [hv]; rfl
  · exact C08_vec_bytes_partial hd hn b
  · obtain ⟨hn, hl⟩ := h
    have e := shortPointer_eq hd hn
    subst e
    match b, hl with
    | [x, y], _ => rfl

example : ∃ x, Msg.cv1NoteOn.tryNewWithBuffer .bytes [0xFF, 0xFF, 0xFF, 9] = .ok x ∧ x.length = 4 ∧
    Msg.cv1NoteOn.Fresh .bytes x ∧ x.drop 3 = [9] :=
  (C08_fixed_bytes_exactly (d := Msg.cv1NoteOn) (by decide +kernel) [0xFF, 0xFF, 0xFF, 9]).2.2.2.2
    (by decide) (by unfold ShortPointer; decide +kernel)

/-- C13, bytes to UMP, exactly: every accepted message is converted, except a two-byte
`SongPositionPointer`, for which the conversion panics. -/
theorem C13_bytes_to_ump_exactly {d : MsgDesc} (hd : d ∈ Msg.hybridAll) (a : Buf .bytes)
    (ha : d.tryFrom .bytes a = .ok a) (size : Nat) (hs : d.umpSize ≤ size) :
    (ShortPointer d a → d.tryConvertArray .bytes .ump size a = .panic ∧
      d.convertArray .bytes .ump size a = .panic ∧ d.convertVec .bytes .ump a = .panic) ∧
    (¬ ShortPointer d a → ∃ u, d.tryConvertArray .bytes .ump size a = .ok u ∧
      d.convertArray .bytes .ump size a = .ok u ∧
      (size = d.umpSize → d.convertVec .bytes .ump a = .ok u) ∧
      u.length = size ∧ d.tryFrom .ump u = .ok u ∧
      Fld.read .ump (.schema .u4 ⟨0x0F000000, 0, 0, 0⟩) u = .ok 0 ∧
      ∀ n f, (n, f) ∈ d.props → f.accessible .bytes = true →
        f.read .ump u = f.read .bytes a) := by
  have hl := ((tryFrom_iff d .bytes a).mp ha).1
  refine ⟨fun h => ?_, fun h => (C13_bytes_to_ump hd a ha (not_short hd hl h) size).2 hs⟩
  obtain ⟨hn, hl⟩ := h
  have e := shortPointer_eq hd hn
  subst e
  have hs : 1 ≤ size := hs
  obtain ⟨e1, e2, e3⟩ := convertArray_eq Msg.sysSongPositionPointer .bytes .ump size a hs
  match a, hl, size, hs with
  | [x, y], _, k + 1, _ =>
    have key : convertProps .bytes .ump Msg.sysSongPositionPointer.props [x, y]
        (List.replicate (k + 1) (0 : BitVec 32)) = .panic := rfl
    exact ⟨e2.trans key, e1.trans key, rfl⟩

example : Msg.sysSongPositionPointer.convertVec .bytes .ump [0xF2, 5] = .panic :=
  ((C13_bytes_to_ump_exactly (d := Msg.sysSongPositionPointer) (by decide +kernel) [0xF2, 5]
    (by decide +kernel) 1 (by decide)).1 (by unfold ShortPointer; decide +kernel)).2.2

/-- C13, UMP to bytes, exactly: the conversion fails with `BufferOverflow` if the array is
shorter than the declared minimum and panics for `SongPositionPointer` into two bytes, which is
what a `Vec` gives; everything else is converted. -/
theorem C13_ump_to_bytes_exactly {d : MsgDesc} (hd : d ∈ Msg.hybridAll) (a : Buf .ump)
    (ha : d.tryFrom .ump a = .ok a) (size : Nat) :
    (size < d.minSize .bytes → d.tryConvertArray .ump .bytes size a = .err .bufferOverflow) ∧
    (d.name = "system_common::SongPositionPointer" → d.convertVec .ump .bytes a = .panic) ∧
    (ShortPointer d (List.replicate size 0) → d.tryConvertArray .ump .bytes size a = .panic ∧
      d.convertArray .ump .bytes size a = .panic) ∧
    (d.minSize .bytes ≤ size → ¬ ShortPointer d (List.replicate size 0) →
      ∃ u, d.tryConvertArray .ump .bytes size a = .ok u ∧
        d.convertArray .ump .bytes size a = .ok u ∧
        (size = d.minSize .bytes → d.convertVec .ump .bytes a = .ok u) ∧
        u.length = size ∧ d.tryFrom .bytes u = .ok u ∧
        ∀ n f, (n, f) ∈ d.props → f.accessible .bytes = true →
          f.read .bytes u = f.read .ump a) := by
  have hl := ((tryFrom_iff d .ump a).mp ha).1
  have spp : ∀ {a : Buf .ump}, 1 ≤ a.length →
      convertProps .ump .bytes Msg.sysSongPositionPointer.props a [0, 0] = .panic := by
    intro a h
    match a, h with
    | w :: rest, _ => rfl
  refine ⟨(C13_ump_to_bytes_partial hd a ha size).1, fun hn => ?_, fun h => ?_, fun hb h => ?_⟩
  · have e := shortPointer_eq hd hn
    subst e
    exact spp hl
  · obtain ⟨hn, h2⟩ := h
    have e := shortPointer_eq hd hn
    subst e
    rw [List.length_replicate] at h2
    subst h2
    exact ⟨spp hl, spp hl⟩
  · refine (C13_ump_to_bytes_partial hd a ha size).2 ?_
    have := room8_le (d := d) (a := List.replicate size 0) (by rw [List.length_replicate]; exact hb)
      (not_short hd (by rw [List.length_replicate]; exact hb) h)
    rwa [List.length_replicate] at this

-- The exceptional case is met by an accepted message, and so is the other one.
example : ShortPointer Msg.sysSongPositionPointer [0xF2, 5] ∧
    Msg.sysSongPositionPointer.tryFrom .bytes [0xF2, 5] = .ok [0xF2, 5] ∧
    ¬ ShortPointer Msg.sysSongPositionPointer [0xF2, 5, 1] ∧
    Msg.sysSongPositionPointer.tryFrom .bytes [0xF2, 5, 1] = .ok [0xF2, 5, 1] ∧
    Msg.sysSongPositionPointer.tryConvertArray .bytes .ump 1 [0xF2, 5, 1] = .ok [0x10F20501] ∧
    Msg.sysSongPositionPointer.tryConvertArray .ump .bytes 3 [0x1AF20501] = .ok [0xF2, 5, 1] := by
  refine ⟨⟨rfl, rfl⟩, rfl, fun h => ?_, rfl, by decide +kernel, by decide +kernel⟩
  exact absurd h.2 (by decide)

end Midi2
